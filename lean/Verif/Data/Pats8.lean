import Verif.Data.Dicts
/-! GENERATED by tools/gen_pats.py from /repo/internal/data; do not edit. -/
set_option autoImplicit false
set_option maxRecDepth 100000
namespace Verif.Data
open Verif.Model

/-- internal/data/ms.go: `ms_BN_Locale`. -/
def ms_BNLang : LangData := ms_BNDict

/-- internal/data/ms.go: `ms_SG_Locale`. -/
def ms_SGLang : LangData := ms_SGDict

/-- internal/data/mt.go: `mt_Locale`. -/
def mtLang : LangData := { mtDict with
  relativeRegexes :=
   [(.seqs [.grp 1 (.number), .lit [' ', 's', 'e', 'n', 'a', ' ', 'i', 'l', 'u']], [.ref 1, .lit [' ', 'y', 'e', 'a', 'r', ' ', 'a', 'g', 'o']]),
    (.seqs [.grp 1 (.number), .lit [' ', 's', 'n', 'i', 'n', ' ', 'i', 'l', 'u']], [.ref 1, .lit [' ', 'y', 'e', 'a', 'r', ' ', 'a', 'g', 'o']])],
  rxCombined := some (.seqs [.grp 1 (.alts [.bos, .cls true [.letter, .mark, .digit], .lit ['_']]), .grp 2 (.alts [.seqs [.number, .lit [' ', 's', 'e', 'n', 'a', ' ', 'i', 'l', 'u']], .seqs [.number, .lit [' ', 's', 'n', 'i', 'n', ' ', 'i', 'l', 'u']]]), .grp 3 (.alts [.eos, .cls true [.letter, .mark, .digit], .lit ['_']])], 3),
  rxExact := some (.seqs [.bos, .grp 1 (.alts [.seqs [.number, .lit [' ', 's', 'e', 'n', 'a', ' ', 'i', 'l', 'u']], .seqs [.number, .lit [' ', 's', 'n', 'i', 'n', ' ', 'i', 'l', 'u']]]), .eos]),
  knownWords :=
   [['i', 'l', '-', 'g', 'i', 'm', 'g', 'ħ', 'a', ' ', 'l', 'i', ' ', 'g', 'ħ', 'a', 'd', 'd', 'i', 'e', 't'], ['i', 's', '-', 's', 'e', 'n', 'a', ' ', 'l', 'i', ' ', 'g', 'ħ', 'a', 'd', 'd', 'i', 'e', 't'], ['i', 'l', '-', 'g', 'i', 'm', 'g', 'ħ', 'a', ' ', 'd', '-', 'd', 'i', 'e', 'ħ', 'l', 'a'], ['i', 'x', '-', 'x', 'a', 'h', 'a', 'r', ' ', 'i', 'd', '-', 'd', 'i', 'e', 'ħ', 'e', 'l'], ['i', 'x', '-', 'x', 'a', 'h', 'a', 'r', ' ', 'l', 'i', ' ', 'g', 'ħ', 'a', 'd', 'd', 'a'], ['i', 's', '-', 's', 'e', 'n', 'a', ' ', 'd', '-', 'd', 'i', 'e', 'ħ', 'l', 'a'], ['d', 'i', 'n', ' ', 'i', 'l', '-', 'g', 'i', 'm', 'g', 'ħ', 'a'], ['d', 'a', 'n', ' ', 'i', 'x', '-', 'x', 'a', 'h', 'a', 'r'], ['d', 'i', 'n', ' ', 'i', 's', '-', 's', 'e', 'n', 'a'], ['t', 'h', 'i', 's', ' ', 'm', 'i', 'n', 'u', 't', 'e'], ['i', 'l', '-', 'g', 'i', 'm', 'g', 'ħ', 'a'], ['i', 't', '-', 't', 'l', 'i', 'e', 't', 'a'], ['s', 'e', 't', 't', 'e', 'm', 'b', 'r', 'u'], ['t', 'h', 'i', 's', ' ', 'h', 'o', 'u', 'r'], ['d', 'i', 'c', 'e', 'm', 'b', 'r', 'u'], ['i', 'l', '-', 'ħ', 'a', 'm', 'i', 's'], ['i', 'l', 'b', 'i', 'e', 'r', 'a', 'ħ'], ['i', 't', '-', 't', 'n', 'e', 'j', 'n'], ['l', '-', 'e', 'r', 'b', 'g', 'ħ', 'a'], ['n', 'o', 'v', 'e', 'm', 'b', 'r', 'u'], ['a', 'w', 'w', 'i', 's', 's', 'u'], ['i', 'l', '-', 'ħ', 'a', 'd', 'd'], ['i', 's', '-', 's', 'i', 'b', 't'], ['o', 't', 't', 'u', 'b', 'r', 'u'], ['s', 'e', 'k', 'o', 'n', 'd', 'a'], ['g', 'i', 'm', 'g', 'ħ', 'a'], ['j', 'a', 'n', 'n', 'a', 'r'], ['m', 'i', 'n', 'u', 't', 'a'], ['s', 'i', 'e', 'g', 'ħ', 'a'], ['a', 'p', 'r', 'i', 'l'], ['g', 'u', 'n', 'j', 'u'], ['g', 'ħ', 'a', 'd', 'a'], ['i', 'l', 'l', 'u', 'm'], ['l', 'u', 'l', 'j', 'u'], ['m', 'a', 'r', 'z', 'u'], ['m', 'e', 'j', 'j', 'u'], ['x', 'a', 'h', 'a', 'r'], ['f', 'r', 'a', 'r'], ['s', 'e', 'n', 'a'], ['a', 'p', 'r'], ['a', 'w', 'w'], ['d', 'i', 'c'], ['e', 'r', 'b'], ['f', 'r', 'a'], ['g', 'i', 'm'], ['g', 'm', 't'], ['g', 'u', 'n'], ['j', 'a', 'n'], ['j', 'u', 'm'], ['l', 'u', 'l'], ['m', 'a', 'r'], ['m', 'e', 'j'], ['n', 'o', 'v'], ['n', 'o', 'w'], ['o', 't', 't'], ['s', 'e', 't'], ['s', 'i', 'b'], ['t', 'l', 'i'], ['t', 'n', 'e'], ['u', 't', 'c'], ['ħ', 'a', 'd'], ['ħ', 'a', 'm'], ['a', 'm'], ['p', 'm'], [' '], ['\''], ['+'], [','], ['-'], ['.'], ['/'], [':'], [';'], ['@'], ['['], [']'], ['z'], ['|']] }

/-- internal/data/mua.go: `mua_Locale`. -/
def muaLang : LangData := { muaDict with
  knownWords :=
   [['c', 'o', 'k', ' ', 'c', 'o', 'm', 'm', 'e', ' ', 'm', 'a', ' ', 'l', 'a', 'ŋ', ' ', 't', 'ǝ', ' ', 'b', 'i', 'ŋ'], ['c', 'o', 'k', ' ', 'c', 'o', 'm', 'm', 'e', ' ', 'm', 'a', ' ', 'l', 'a', 'ŋ', 'n', 'e'], ['m', 'a', 'm', 'ǝ', 'ŋ', 'g', 'w', 'a', 'a', 'f', 'a', 'h', 'b', 'i', 'i'], ['z', 'a', 'h', '\'', 'n', 'a', 'n', 'e', '/', ' ', 'c', 'o', 'm', 'm', 'e'], ['m', 'a', 'd', 'ǝ', 'ǝ', 'u', 'u', 't', 'ǝ', 'b', 'i', 'j', 'a', 'ŋ'], ['c', 'o', 'k', 'c', 'w', 'a', 'k', 'l', 'a', 'ŋ', 'n', 'e'], ['c', 'o', 'm', 'k', 'a', 'l', 'd', 'ǝ', 'ɓ', 'l', 'i', 'i'], ['m', 'a', 'm', 'ǝ', 'ŋ', 'g', 'w', 'a', 'a', 'l', 'i', 'i'], ['f', 'i', 'i', ' ', 'g', 'w', 'a', 'h', 'l', 'l', 'e'], ['t', 'h', 'i', 's', ' ', 'm', 'i', 'n', 'u', 't', 'e'], ['c', 'o', 'k', 'c', 'w', 'a', 'k', 'l', 'i', 'i'], ['c', 'o', 'm', 'z', 'y', 'e', 'ɓ', 's', 'u', 'u'], ['c', 'o', 'm', 'z', 'y', 'i', 'i', 'ɗ', 'i', 'i'], ['f', 'i', 'i', ' ', 'd', 'ǝ', 'ɓ', 'l', 'i', 'i'], ['f', 'i', 'i', ' ', 'm', 'a', 'r', 'f', 'o', 'o'], ['f', 'i', 'i', ' ', 'm', 'u', 'n', 'd', 'a', 'ŋ'], ['l', 'a', 's', 't', ' ', 'm', 'o', 'n', 't', 'h'], ['n', 'e', 'x', 't', ' ', 'm', 'o', 'n', 't', 'h'], ['t', 'h', 'i', 's', ' ', 'm', 'o', 'n', 't', 'h'], ['c', 'o', 'k', ' ', 'c', 'o', 'm', 'm', 'e'], ['c', 'o', 'm', '\'', 'y', 'a', 'k', 'k', 'e'], ['c', 'o', 'm', 'g', 'a', 'i', 's', 'u', 'u'], ['c', 'o', 'm', 'l', 'a', 'a', 'ɗ', 'i', 'i'], ['l', 'a', 's', 't', ' ', 'w', 'e', 'e', 'k'], ['l', 'a', 's', 't', ' ', 'y', 'e', 'a', 'r'], ['n', 'e', 'x', 't', ' ', 'w', 'e', 'e', 'k'], ['n', 'e', 'x', 't', ' ', 'y', 'e', 'a', 'r'], ['t', 'h', 'i', 's', ' ', 'h', 'o', 'u', 'r'], ['t', 'h', 'i', 's', ' ', 'w', 'e', 'e', 'k'], ['t', 'h', 'i', 's', ' ', 'y', 'e', 'a', 'r'], ['c', 'o', 'm', 'k', 'o', 'l', 'l', 'e'], ['f', 'i', 'i', ' ', 'y', 'u', 'r', 'u'], ['m', 'a', 'd', 'ǝ', 'm', 'b', 'i', 'i'], ['t', 'ǝ', '\'', 'n', 'a', 'h', 'k', 'o'], ['f', 'i', 'i', ' ', 'l', 'o', 'o'], ['t', 'ǝ', '\'', 'n', 'a', 'n', 'e'], ['c', 'o', 'm', 'm', 'e'], ['l', 'i', 'l', 'l', 'i'], ['t', 'ǝ', 's', 'o', 'o'], ['l', 'u', 'm', 'a'], ['s', 'y', 'i', 'i'], ['c', 'g', 'a'], ['c', 'k', 'a'], ['c', 'k', 'i'], ['c', 'k', 'o'], ['c', 'l', 'a'], ['c', 'y', 'a'], ['c', 'z', 'e'], ['c', 'z', 'i'], ['f', 'd', 'e'], ['f', 'g', 'w'], ['f', 'i', 'i'], ['f', 'l', 'o'], ['f', 'm', 'f'], ['f', 'm', 'u'], ['f', 'y', 'u'], ['g', 'm', 't'], ['m', 'a', 'd'], ['m', 'a', 'm'], ['m', 'b', 'i'], ['m', 'l', 'i'], ['n', 'o', 'w'], ['u', 't', 'c'], ['a', 'm'], ['p', 'm'], [' '], ['\''], ['+'], [','], ['-'], ['.'], ['/'], [':'], [';'], ['@'], ['['], [']'], ['z'], ['|']] }

/-- internal/data/my.go: `my_Locale`. -/
def myLang : LangData := { myDict with
  relativeRegexes :=
   [(.seqs [.lit ['ပ', 'ြ', 'း', 'ခ', 'သ', 'ည', ' '], .grp 1 (.number), .lit [' ', 'စ', 'က', 'က', 'န']], [.ref 1, .lit [' ', 's', 'e', 'c', 'o', 'n', 'd', ' ', 'a', 'g', 'o']]),
    (.seqs [.lit ['ပ', 'ြ', 'း', 'ခ', 'သ', 'ည', ' '], .grp 1 (.number), .lit [' ', 'န', 'ာ', 'ရ']], [.ref 1, .lit [' ', 'h', 'o', 'u', 'r', ' ', 'a', 'g', 'o']]),
    (.seqs [.lit ['ပ', 'ြ', 'း', 'ခ', 'သ', 'ည', ' '], .grp 1 (.number), .lit [' ', 'မ', 'န', 'စ']], [.ref 1, .lit [' ', 'm', 'i', 'n', 'u', 't', 'e', ' ', 'a', 'g', 'o']]),
    (.seqs [.lit ['ပ', 'ြ', 'း', 'ခ', 'သ', 'ည', ' '], .grp 1 (.number), .lit [' ', 'န', 'စ']], [.ref 1, .lit [' ', 'y', 'e', 'a', 'r', ' ', 'a', 'g', 'o']]),
    (.seqs [.lit ['ပ', 'ြ', 'း', 'ခ', 'သ', 'ည', ' '], .grp 1 (.number), .lit [' ', 'ပ', 'တ']], [.ref 1, .lit [' ', 'w', 'e', 'e', 'k', ' ', 'a', 'g', 'o']]),
    (.seqs [.lit ['ပ', 'ြ', 'း', 'ခ', 'သ', 'ည', ' '], .grp 1 (.number), .lit [' ', 'ရ', 'က']], [.ref 1, .lit [' ', 'd', 'a', 'y', ' ', 'a', 'g', 'o']]),
    (.seqs [.grp 1 (.number), .lit [' ', 'စ', 'က', 'က', 'န', 'အ', 'တ', 'င', 'း']], [.lit ['i', 'n', ' '], .ref 1, .lit [' ', 's', 'e', 'c', 'o', 'n', 'd']]),
    (.seqs [.lit ['ပ', 'ြ', 'း', 'ခ', 'သ', 'ည', ' '], .grp 1 (.number), .lit [' ', 'လ']], [.ref 1, .lit [' ', 'm', 'o', 'n', 't', 'h', ' ', 'a', 'g', 'o']]),
    (.seqs [.grp 1 (.number), .lit [' ', 'န', 'ာ', 'ရ', 'အ', 'တ', 'င', 'း']], [.lit ['i', 'n', ' '], .ref 1, .lit [' ', 'h', 'o', 'u', 'r']]),
    (.seqs [.grp 1 (.number), .lit [' ', 'မ', 'န', 'စ', 'အ', 'တ', 'င', 'း']], [.lit ['i', 'n', ' '], .ref 1, .lit [' ', 'm', 'i', 'n', 'u', 't', 'e']]),
    (.seqs [.grp 1 (.number), .lit [' ', 'န', 'စ', 'အ', 'တ', 'င', 'း']], [.lit ['i', 'n', ' '], .ref 1, .lit [' ', 'y', 'e', 'a', 'r']]),
    (.seqs [.grp 1 (.number), .lit [' ', 'ပ', 'တ', 'အ', 'တ', 'င', 'း']], [.lit ['i', 'n', ' '], .ref 1, .lit [' ', 'w', 'e', 'e', 'k']]),
    (.seqs [.grp 1 (.number), .lit [' ', 'ရ', 'က', 'အ', 'တ', 'င', 'း']], [.lit ['i', 'n', ' '], .ref 1, .lit [' ', 'd', 'a', 'y']]),
    (.seqs [.grp 1 (.number), .lit [' ', 'လ', 'အ', 'တ', 'င', 'း']], [.lit ['i', 'n', ' '], .ref 1, .lit [' ', 'm', 'o', 'n', 't', 'h']])],
  rxCombined := some (.seqs [.grp 1 (.alts [.bos, .cls true [.letter, .mark, .digit], .lit ['_']]), .grp 2 (.alts [.seqs [.lit ['ပ', 'ြ', 'း', 'ခ', 'သ', 'ည', ' '], .number, .lit [' ', 'စ', 'က', 'က', 'န']], .seqs [.lit ['ပ', 'ြ', 'း', 'ခ', 'သ', 'ည', ' '], .number, .lit [' ', 'န', 'ာ', 'ရ']], .seqs [.lit ['ပ', 'ြ', 'း', 'ခ', 'သ', 'ည', ' '], .number, .lit [' ', 'မ', 'န', 'စ']], .seqs [.lit ['ပ', 'ြ', 'း', 'ခ', 'သ', 'ည', ' '], .number, .lit [' ', 'န', 'စ']], .seqs [.lit ['ပ', 'ြ', 'း', 'ခ', 'သ', 'ည', ' '], .number, .lit [' ', 'ပ', 'တ']], .seqs [.lit ['ပ', 'ြ', 'း', 'ခ', 'သ', 'ည', ' '], .number, .lit [' ', 'ရ', 'က']], .seqs [.number, .lit [' ', 'စ', 'က', 'က', 'န', 'အ', 'တ', 'င', 'း']], .seqs [.lit ['ပ', 'ြ', 'း', 'ခ', 'သ', 'ည', ' '], .number, .lit [' ', 'လ']], .seqs [.number, .lit [' ', 'န', 'ာ', 'ရ', 'အ', 'တ', 'င', 'း']], .seqs [.number, .lit [' ', 'မ', 'န', 'စ', 'အ', 'တ', 'င', 'း']], .seqs [.number, .lit [' ', 'န', 'စ', 'အ', 'တ', 'င', 'း']], .seqs [.number, .lit [' ', 'ပ', 'တ', 'အ', 'တ', 'င', 'း']], .seqs [.number, .lit [' ', 'ရ', 'က', 'အ', 'တ', 'င', 'း']], .seqs [.number, .lit [' ', 'လ', 'အ', 'တ', 'င', 'း']]]), .grp 3 (.alts [.eos, .cls true [.letter, .mark, .digit], .lit ['_']])], 3),
  rxExact := some (.seqs [.bos, .grp 1 (.alts [.seqs [.lit ['ပ', 'ြ', 'း', 'ခ', 'သ', 'ည', ' '], .number, .lit [' ', 'စ', 'က', 'က', 'န']], .seqs [.lit ['ပ', 'ြ', 'း', 'ခ', 'သ', 'ည', ' '], .number, .lit [' ', 'န', 'ာ', 'ရ']], .seqs [.lit ['ပ', 'ြ', 'း', 'ခ', 'သ', 'ည', ' '], .number, .lit [' ', 'မ', 'န', 'စ']], .seqs [.lit ['ပ', 'ြ', 'း', 'ခ', 'သ', 'ည', ' '], .number, .lit [' ', 'န', 'စ']], .seqs [.lit ['ပ', 'ြ', 'း', 'ခ', 'သ', 'ည', ' '], .number, .lit [' ', 'ပ', 'တ']], .seqs [.lit ['ပ', 'ြ', 'း', 'ခ', 'သ', 'ည', ' '], .number, .lit [' ', 'ရ', 'က']], .seqs [.number, .lit [' ', 'စ', 'က', 'က', 'န', 'အ', 'တ', 'င', 'း']], .seqs [.lit ['ပ', 'ြ', 'း', 'ခ', 'သ', 'ည', ' '], .number, .lit [' ', 'လ']], .seqs [.number, .lit [' ', 'န', 'ာ', 'ရ', 'အ', 'တ', 'င', 'း']], .seqs [.number, .lit [' ', 'မ', 'န', 'စ', 'အ', 'တ', 'င', 'း']], .seqs [.number, .lit [' ', 'န', 'စ', 'အ', 'တ', 'င', 'း']], .seqs [.number, .lit [' ', 'ပ', 'တ', 'အ', 'တ', 'င', 'း']], .seqs [.number, .lit [' ', 'ရ', 'က', 'အ', 'တ', 'င', 'း']], .seqs [.number, .lit [' ', 'လ', 'အ', 'တ', 'င', 'း']]]), .eos]),
  knownWords :=
   [['ပ', 'ြ', 'း', 'ခ', 'သ', 'ည', ' ', 'သ', 'တ', 'င', 'း', 'ပ', 'တ'], ['လ', 'ာ', 'မ', 'ည', ' ', 'သ', 'တ', 'င', 'း', 'ပ', 'တ'], ['ယ', 'ခ', ' ', 'သ', 'တ', 'င', 'း', 'ပ', 'တ'], ['က', 'ြ', 'ာ', 'သ', 'ပ', 'တ', 'ေ', 'း'], ['ဖ', 'ေ', 'ဖ', 'ေ', 'ာ', 'ဝ', 'ါ', 'ရ'], ['ပ', 'ြ', 'း', 'ခ', 'သ', 'ည', 'လ'], ['အ', 'ေ', 'ာ', 'က', 'တ', 'ဘ', 'ာ'], ['စ', 'က', 'တ', 'င', 'ဘ', 'ာ'], ['ဇ', 'န', 'န', 'ဝ', 'ါ', 'ရ'], ['တ', 'န', 'င', 'ဂ', 'န', 'ေ'], ['မ', 'န', 'က', 'ဖ', 'ြ', 'န'], ['လ', 'ာ', 'မ', 'ည', 'န', 'စ'], ['သ', 'ေ', 'ာ', 'က', 'ြ', 'ာ'], ['တ', 'န', 'င', 'လ', 'ာ'], ['ဒ', 'ဇ', 'င', 'ဘ', 'ာ'], ['န', 'ဝ', 'င', 'ဘ', 'ာ'], ['ဗ', 'ဒ', 'ဓ', 'ဟ', 'း'], ['ယ', 'မ', 'န', 'န', 'စ'], ['လ', 'ာ', 'မ', 'ည', 'လ'], ['ဤ', 'အ', 'ခ', 'ျ', 'န'], ['စ', 'က', 'က', 'န'], ['မ', 'န', 'ေ', 'က'], ['ယ', 'ခ', 'န', 'စ'], ['အ', 'င', 'ဂ', 'ါ'], ['အ', 'ေ', 'ာ', 'က'], ['ဤ', 'မ', 'န', 'စ'], ['g', 'm', 't'], ['u', 't', 'c'], ['စ', 'န', 'ေ'], ['ဇ', 'လ', 'င'], ['ည', 'န', 'ေ'], ['န', 'န', 'က'], ['န', 'ာ', 'ရ'], ['မ', 'န', 'စ'], ['ယ', 'ခ', 'လ'], ['ယ', 'န', 'ေ'], ['ဧ', 'ပ', 'ြ'], ['ဩ', 'ဂ', 'တ'], ['a', 'm'], ['p', 'm'], ['စ', 'က'], ['ဇ', 'န'], ['န', 'စ'], ['ပ', 'တ'], ['ဖ', 'ေ'], ['မ', 'တ'], ['မ', 'ေ'], ['ယ', 'ခ'], ['ရ', 'က'], [' '], ['\''], ['+'], [','], ['-'], ['.'], ['/'], [':'], [';'], ['@'], ['['], [']'], ['z'], ['|'], ['ဇ'], ['ဒ'], ['န'], ['လ'], ['ဧ'], ['ဩ']] }

/-- internal/data/mzn.go: `mzn_Locale`. -/
def mznLang : LangData := { mznDict with
  relativeRegexes :=
   [(.seqs [.grp 1 (.number), .lit [' ', 'ث', 'ا', 'ن', 'ی', 'ه', ' ', 'د', 'ل', 'ه']], [.lit ['i', 'n', ' '], .ref 1, .lit [' ', 's', 'e', 'c', 'o', 'n', 'd']]),
    (.seqs [.grp 1 (.number), .lit [' ', 'ث', 'ا', 'ن', 'ی', 'ه', ' ', 'پ', 'ی', 'ش']], [.ref 1, .lit [' ', 's', 'e', 'c', 'o', 'n', 'd', ' ', 'a', 'g', 'o']]),
    (.seqs [.grp 1 (.number), .lit [' ', 'د', 'ق', 'ی', 'ق', 'ه', ' ', 'د', 'ل', 'ه']], [.lit ['i', 'n', ' '], .ref 1, .lit [' ', 'm', 'i', 'n', 'u', 't', 'e']]),
    (.seqs [.grp 1 (.number), .lit [' ', 'س', 'ا', 'ع', 'ت', ' ', 'د', 'ل', 'ه']], [.lit ['i', 'n', ' '], .ref 1, .lit [' ', 'h', 'o', 'u', 'r']]),
    (.seqs [.grp 1 (.number), .lit [' ', 'س', 'ا', 'ع', 'ت', ' ', 'پ', 'ی', 'ش']], [.ref 1, .lit [' ', 'h', 'o', 'u', 'r', ' ', 'a', 'g', 'o']]),
    (.seqs [.grp 1 (.number), .lit [' ', 'ه', 'ف', 'ت', 'ه', ' ', 'د', 'ل', 'ه']], [.lit ['i', 'n', ' '], .ref 1, .lit [' ', 'w', 'e', 'e', 'k']]),
    (.seqs [.grp 1 (.number), .lit [' ', 'ه', 'ف', 'ت', 'ه', ' ', 'پ', 'ی', 'ش']], [.ref 1, .lit [' ', 'w', 'e', 'e', 'k', ' ', 'a', 'g', 'o']]),
    (.seqs [.grp 1 (.number), .lit [' ', 'د', 'ق', 'ه', ' ', 'د', 'ل', 'ه']], [.lit ['i', 'n', ' '], .ref 1, .lit [' ', 'm', 'i', 'n', 'u', 't', 'e']]),
    (.seqs [.grp 1 (.number), .lit [' ', 'د', 'ق', 'ه', ' ', 'پ', 'ی', 'ش']], [.ref 1, .lit [' ', 'm', 'i', 'n', 'u', 't', 'e', ' ', 'a', 'g', 'o']]),
    (.seqs [.grp 1 (.number), .lit [' ', 'ر', 'و', 'ز', ' ', 'د', 'ل', 'ه']], [.lit ['i', 'n', ' '], .ref 1, .lit [' ', 'd', 'a', 'y']]),
    (.seqs [.grp 1 (.number), .lit [' ', 'ر', 'و', 'ز', ' ', 'پ', 'ی', 'ش']], [.ref 1, .lit [' ', 'd', 'a', 'y', ' ', 'a', 'g', 'o']]),
    (.seqs [.grp 1 (.number), .lit [' ', 'س', 'ا', 'ل', ' ', 'د', 'ل', 'ه']], [.lit ['i', 'n', ' '], .ref 1, .lit [' ', 'y', 'e', 'a', 'r']]),
    (.seqs [.grp 1 (.number), .lit [' ', 'س', 'ا', 'ل', ' ', 'پ', 'ی', 'ش']], [.ref 1, .lit [' ', 'y', 'e', 'a', 'r', ' ', 'a', 'g', 'o']]),
    (.seqs [.grp 1 (.number), .lit [' ', 'م', 'ا', 'ه', ' ', 'د', 'ل', 'ه']], [.lit ['i', 'n', ' '], .ref 1, .lit [' ', 'm', 'o', 'n', 't', 'h']]),
    (.seqs [.grp 1 (.number), .lit [' ', 'م', 'ا', 'ه', ' ', 'پ', 'ی', 'ش']], [.ref 1, .lit [' ', 'm', 'o', 'n', 't', 'h', ' ', 'a', 'g', 'o']])],
  rxCombined := some (.seqs [.grp 1 (.alts [.bos, .cls true [.letter, .mark, .digit], .lit ['_']]), .grp 2 (.alts [.seqs [.number, .lit [' ', 'ث', 'ا', 'ن', 'ی', 'ه', ' ', 'د', 'ل', 'ه']], .seqs [.number, .lit [' ', 'ث', 'ا', 'ن', 'ی', 'ه', ' ', 'پ', 'ی', 'ش']], .seqs [.number, .lit [' ', 'د', 'ق', 'ی', 'ق', 'ه', ' ', 'د', 'ل', 'ه']], .seqs [.number, .lit [' ', 'س', 'ا', 'ع', 'ت', ' ', 'د', 'ل', 'ه']], .seqs [.number, .lit [' ', 'س', 'ا', 'ع', 'ت', ' ', 'پ', 'ی', 'ش']], .seqs [.number, .lit [' ', 'ه', 'ف', 'ت', 'ه', ' ', 'د', 'ل', 'ه']], .seqs [.number, .lit [' ', 'ه', 'ف', 'ت', 'ه', ' ', 'پ', 'ی', 'ش']], .seqs [.number, .lit [' ', 'د', 'ق', 'ه', ' ', 'د', 'ل', 'ه']], .seqs [.number, .lit [' ', 'د', 'ق', 'ه', ' ', 'پ', 'ی', 'ش']], .seqs [.number, .lit [' ', 'ر', 'و', 'ز', ' ', 'د', 'ل', 'ه']], .seqs [.number, .lit [' ', 'ر', 'و', 'ز', ' ', 'پ', 'ی', 'ش']], .seqs [.number, .lit [' ', 'س', 'ا', 'ل', ' ', 'د', 'ل', 'ه']], .seqs [.number, .lit [' ', 'س', 'ا', 'ل', ' ', 'پ', 'ی', 'ش']], .seqs [.number, .lit [' ', 'م', 'ا', 'ه', ' ', 'د', 'ل', 'ه']], .seqs [.number, .lit [' ', 'م', 'ا', 'ه', ' ', 'پ', 'ی', 'ش']]]), .grp 3 (.alts [.eos, .cls true [.letter, .mark, .digit], .lit ['_']])], 3),
  rxExact := some (.seqs [.bos, .grp 1 (.alts [.seqs [.number, .lit [' ', 'ث', 'ا', 'ن', 'ی', 'ه', ' ', 'د', 'ل', 'ه']], .seqs [.number, .lit [' ', 'ث', 'ا', 'ن', 'ی', 'ه', ' ', 'پ', 'ی', 'ش']], .seqs [.number, .lit [' ', 'د', 'ق', 'ی', 'ق', 'ه', ' ', 'د', 'ل', 'ه']], .seqs [.number, .lit [' ', 'س', 'ا', 'ع', 'ت', ' ', 'د', 'ل', 'ه']], .seqs [.number, .lit [' ', 'س', 'ا', 'ع', 'ت', ' ', 'پ', 'ی', 'ش']], .seqs [.number, .lit [' ', 'ه', 'ف', 'ت', 'ه', ' ', 'د', 'ل', 'ه']], .seqs [.number, .lit [' ', 'ه', 'ف', 'ت', 'ه', ' ', 'پ', 'ی', 'ش']], .seqs [.number, .lit [' ', 'د', 'ق', 'ه', ' ', 'د', 'ل', 'ه']], .seqs [.number, .lit [' ', 'د', 'ق', 'ه', ' ', 'پ', 'ی', 'ش']], .seqs [.number, .lit [' ', 'ر', 'و', 'ز', ' ', 'د', 'ل', 'ه']], .seqs [.number, .lit [' ', 'ر', 'و', 'ز', ' ', 'پ', 'ی', 'ش']], .seqs [.number, .lit [' ', 'س', 'ا', 'ل', ' ', 'د', 'ل', 'ه']], .seqs [.number, .lit [' ', 'س', 'ا', 'ل', ' ', 'پ', 'ی', 'ش']], .seqs [.number, .lit [' ', 'م', 'ا', 'ه', ' ', 'د', 'ل', 'ه']], .seqs [.number, .lit [' ', 'م', 'ا', 'ه', ' ', 'پ', 'ی', 'ش']]]), .eos]),
  knownWords :=
   [['t', 'h', 'i', 's', ' ', 'm', 'i', 'n', 'u', 't', 'e'], ['t', 'h', 'i', 's', ' ', 'h', 'o', 'u', 'r'], ['ب', 'ع', 'د', 'ی', ' ', 'ه', 'ف', 'ت', 'ه'], ['ق', 'ب', 'ل', 'ی', ' ', 'ه', 'ف', 'ت', 'ه'], ['ا', 'ی', 'ن', ' ', 'ه', 'ف', 'ت', 'ه'], ['س', 'ا', 'ل', ' ', 'د', 'ی', 'گ', 'ه'], ['ا', 'ی', 'ن', ' ', 'م', 'ا', 'ه'], ['س', 'پ', 'ت', 'ا', 'م', 'ب', 'ر'], ['م', 'ا', 'ه', ' ', 'ب', 'ع', 'د'], ['م', 'ا', 'ه', ' ', 'ق', 'ب', 'ل'], ['د', 'س', 'ا', 'م', 'ب', 'ر'], ['ن', 'و', 'ا', 'م', 'ب', 'ر'], ['پ', 'ا', 'ر', 'س', 'ا', 'ل'], ['ژ', 'ا', 'ن', 'و', 'ی', 'ه'], ['ا', 'م', 'ر', 'و', 'ز'], ['ا', 'م', 'س', 'ا', 'ل'], ['ا', 'و', 'ر', 'ی', 'ل'], ['ا', 'ک', 'ت', 'ب', 'ر'], ['ث', 'ا', 'ن', 'ی', 'ه'], ['د', 'ق', 'ی', 'ق', 'ه'], ['د', 'ی', 'ر', 'و', 'ز'], ['ف', 'و', 'ر', 'ی', 'ه'], ['ژ', 'و', 'ي', 'ی', 'ه'], ['س', 'ا', 'ع', 'ت'], ['ف', 'ر', 'د', 'ا'], ['م', 'ا', 'ر', 'س'], ['ه', 'ف', 'ت', 'ه'], ['ژ', 'و', 'ي', 'ن'], ['f', 'r', 'i'], ['g', 'm', 't'], ['m', 'o', 'n'], ['n', 'o', 'w'], ['s', 'a', 't'], ['s', 'u', 'n'], ['t', 'h', 'u'], ['t', 'u', 'e'], ['u', 't', 'c'], ['w', 'e', 'd'], ['ا', 'و', 'ت'], ['د', 'ق', 'ه'], ['ر', 'و', 'ز'], ['س', 'ا', 'ل'], ['م', 'ا', 'ه'], ['a', 'm'], ['p', 'm'], ['م', 'ه'], [' '], ['\''], ['+'], [','], ['-'], ['.'], ['/'], [':'], [';'], ['@'], ['['], [']'], ['z'], ['|']] }

/-- internal/data/naq.go: `naq_Locale`. -/
def naqLang : LangData := { naqDict with
  knownWords :=
   [['t', 'a', 'r', 'a', 'ǀ', 'k', 'h', 'u', 'u', 'm', 'u', 'ǁ', 'k', 'h', 'a', 'b'], ['a', 'o', 'ǁ', 'k', 'h', 'u', 'u', 'm', 'u', 'ǁ', 'k', 'h', 'a', 'b'], ['d', 'o', 'n', 'd', 'e', 'r', 't', 'a', 'x', 't', 's', 'e', 'e', 's'], ['s', 'a', 't', 'e', 'r', 't', 'a', 'x', 't', 's', 'e', 'e', 's'], ['d', 'e', 'n', 's', 't', 'a', 'x', 't', 's', 'e', 'e', 's'], ['f', 'r', 'a', 'i', 't', 'a', 'x', 't', 's', 'e', 'e', 's'], ['h', 'o', 'a', 's', 'o', 'r', 'e', 'ǁ', 'k', 'h', 'a', 'b'], ['w', 'u', 'n', 's', 't', 'a', 'x', 't', 's', 'e', 'e', 's'], ['m', 'a', 'n', 't', 'a', 'x', 't', 's', 'e', 'e', 's'], ['s', 'o', 'n', 't', 'a', 'x', 't', 's', 'e', 'e', 's'], ['t', 'h', 'i', 's', ' ', 'm', 'i', 'n', 'u', 't', 'e'], ['l', 'a', 's', 't', ' ', 'm', 'o', 'n', 't', 'h'], ['n', 'e', 'x', 't', ' ', 'm', 'o', 'n', 't', 'h'], ['t', 'h', 'i', 's', ' ', 'm', 'o', 'n', 't', 'h'], ['ǀ', 'k', 'h', 'u', 'u', 'ǁ', 'k', 'h', 'a', 'b'], ['ǂ', 'n', 'u', 'ǁ', 'n', 'a', 'i', 's', 'e', 'b'], ['ǃ', 'h', 'o', 'a', 'ǂ', 'k', 'h', 'a', 'i', 'b'], ['ǃ', 'k', 'h', 'a', 'n', 'ǀ', 'g', 'o', 'a', 'b'], ['l', 'a', 's', 't', ' ', 'w', 'e', 'e', 'k'], ['l', 'a', 's', 't', ' ', 'y', 'e', 'a', 'r'], ['n', 'e', 'x', 't', ' ', 'w', 'e', 'e', 'k'], ['n', 'e', 'x', 't', ' ', 'y', 'e', 'a', 'r'], ['t', 'h', 'i', 's', ' ', 'h', 'o', 'u', 'r'], ['t', 'h', 'i', 's', ' ', 'w', 'e', 'e', 'k'], ['t', 'h', 'i', 's', ' ', 'y', 'e', 'a', 'r'], ['y', 'e', 's', 't', 'e', 'r', 'd', 'a', 'y'], ['ǀ', 'h', 'o', 'o', 'ǂ', 'g', 'a', 'e', 'b'], ['ǂ', 'k', 'h', 'o', 'e', 's', 'a', 'o', 'b'], ['ǃ', 'k', 'h', 'a', 'i', 't', 's', 'a', 'b'], ['g', 'a', 'm', 'a', 'ǀ', 'a', 'e', 'b'], ['t', 'o', 'm', 'o', 'r', 'r', 'o', 'w'], ['n', 'e', 'e', 't', 's', 'e', 'e'], ['ǁ', 'g', 'o', 'a', 'g', 'a', 's'], ['ǃ', 'k', 'h', 'a', 'n', 'n', 'i'], ['w', 'e', 'k', 'h', 'e', 'b'], ['k', 'u', 'r', 'i', 'b'], ['t', 's', 'e', 'e', 's'], ['ǀ', 'g', 'a', 'u', 'b'], ['ǁ', 'k', 'h', 'a', 'b'], ['ǃ', 'u', 'i', 'a', 's'], ['h', 'a', 'i', 'b'], ['i', 'i', 'r', 'i'], ['a', 'p', 'r'], ['a', 'u', 'g'], ['d', 'e', 'c'], ['f', 'e', 'b'], ['g', 'm', 't'], ['j', 'a', 'n'], ['j', 'u', 'l'], ['j', 'u', 'n'], ['m', 'a', 'r'], ['m', 'a', 'y'], ['n', 'o', 'v'], ['n', 'o', 'w'], ['o', 'c', 't'], ['s', 'a', 't'], ['s', 'e', 'p'], ['s', 'o', 'n'], ['u', 't', 'c'], ['a', 'm'], ['d', 'e'], ['d', 'o'], ['f', 'r'], ['m', 'a'], ['p', 'm'], ['w', 'u'], [' '], ['\''], ['+'], [','], ['-'], ['.'], ['/'], [':'], [';'], ['@'], ['['], [']'], ['z'], ['|']] }

/-- internal/data/nb.go: `nb_Locale`. -/
def nbLang : LangData := { nbDict with
  relativeRegexes :=
   [(.seqs [.lit ['f', 'o', 'r', ' '], .grp 1 (.number), .lit [' ', 'm', 'i', 'n', 'u', 't', 't', 'e', 'r', ' ', 's', 'i', 'd', 'e', 'n']], [.ref 1, .lit [' ', 'm', 'i', 'n', 'u', 't', 'e', ' ', 'a', 'g', 'o']]),
    (.seqs [.lit ['f', 'o', 'r', ' '], .grp 1 (.number), .lit [' ', 's', 'e', 'k', 'u', 'n', 'd', 'e', 'r', ' ', 's', 'i', 'd', 'e', 'n']], [.ref 1, .lit [' ', 's', 'e', 'c', 'o', 'n', 'd', ' ', 'a', 'g', 'o']]),
    (.seqs [.lit ['f', 'o', 'r', ' '], .grp 1 (.number), .lit [' ', 'm', 'a', 'n', 'e', 'd', 'e', 'r', ' ', 's', 'i', 'd', 'e', 'n']], [.ref 1, .lit [' ', 'm', 'o', 'n', 't', 'h', ' ', 'a', 'g', 'o']]),
    (.seqs [.lit ['f', 'o', 'r', ' '], .grp 1 (.number), .lit [' ', 'm', 'i', 'n', 'u', 't', 't', ' ', 's', 'i', 'd', 'e', 'n']], [.ref 1, .lit [' ', 'm', 'i', 'n', 'u', 't', 'e', ' ', 'a', 'g', 'o']]),
    (.seqs [.lit ['f', 'o', 'r', ' '], .grp 1 (.number), .lit [' ', 's', 'e', 'k', 'u', 'n', 'd', ' ', 's', 'i', 'd', 'e', 'n']], [.ref 1, .lit [' ', 's', 'e', 'c', 'o', 'n', 'd', ' ', 'a', 'g', 'o']]),
    (.seqs [.lit ['f', 'o', 'r', ' '], .grp 1 (.number), .lit [' ', 'd', 'a', 'g', 'e', 'r', ' ', 's', 'i', 'd', 'e', 'n']], [.ref 1, .lit [' ', 'd', 'a', 'y', ' ', 'a', 'g', 'o']]),
    (.seqs [.lit ['f', 'o', 'r', ' '], .grp 1 (.number), .lit [' ', 'm', 'a', 'n', 'e', 'd', ' ', 's', 'i', 'd', 'e', 'n']], [.ref 1, .lit [' ', 'm', 'o', 'n', 't', 'h', ' ', 'a', 'g', 'o']]),
    (.seqs [.lit ['f', 'o', 'r', ' '], .grp 1 (.number), .lit [' ', 't', 'i', 'm', 'e', 'r', ' ', 's', 'i', 'd', 'e', 'n']], [.ref 1, .lit [' ', 'h', 'o', 'u', 'r', ' ', 'a', 'g', 'o']]),
    (.seqs [.lit ['f', 'o', 'r', ' '], .grp 1 (.number), .lit [' ', 'd'], .cls false [.rng 'Ø' 'Ø', .rng 'ø' 'ø'], .lit ['g', 'n', ' ', 's', 'i', 'd', 'e', 'n']], [.ref 1, .lit [' ', 'd', 'a', 'y', ' ', 'a', 'g', 'o']]),
    (.seqs [.lit ['f', 'o', 'r', ' '], .grp 1 (.number), .lit [' ', 't', 'i', 'm', 'e', ' ', 's', 'i', 'd', 'e', 'n']], [.ref 1, .lit [' ', 'h', 'o', 'u', 'r', ' ', 'a', 'g', 'o']]),
    (.seqs [.lit ['f', 'o', 'r', ' '], .grp 1 (.number), .lit [' ', 'u', 'k', 'e', 'r', ' ', 's', 'i', 'd', 'e', 'n']], [.ref 1, .lit [' ', 'w', 'e', 'e', 'k', ' ', 'a', 'g', 'o']]),
    (.seqs [.lit ['f', 'o', 'r', ' '], .grp 1 (.number), .lit [' ', 'm', 'i', 'n', ' ', 's', 'i', 'd', 'e', 'n']], [.ref 1, .lit [' ', 'm', 'i', 'n', 'u', 't', 'e', ' ', 'a', 'g', 'o']]),
    (.seqs [.lit ['f', 'o', 'r', ' '], .grp 1 (.number), .lit [' ', 's', 'e', 'k', ' ', 's', 'i', 'd', 'e', 'n']], [.ref 1, .lit [' ', 's', 'e', 'c', 'o', 'n', 'd', ' ', 'a', 'g', 'o']]),
    (.seqs [.lit ['f', 'o', 'r', ' '], .grp 1 (.number), .lit [' ', 'u', 'k', 'e', ' ', 's', 'i', 'd', 'e', 'n']], [.ref 1, .lit [' ', 'w', 'e', 'e', 'k', ' ', 'a', 'g', 'o']]),
    (.seqs [.lit ['f', 'o', 'r', ' '], .grp 1 (.number), .lit [' ', 'a', 'r', ' ', 's', 'i', 'd', 'e', 'n']], [.ref 1, .lit [' ', 'y', 'e', 'a', 'r', ' ', 'a', 'g', 'o']]),
    (.seqs [.lit ['f', 'o', 'r', ' '], .grp 1 (.number), .lit [' ', 'm', 'd', ' ', 's', 'i', 'd', 'e', 'n']], [.ref 1, .lit [' ', 'm', 'o', 'n', 't', 'h', ' ', 'a', 'g', 'o']]),
    (.seqs [.lit ['f', 'o', 'r', ' '], .grp 1 (.number), .lit [' ', 'd', ' ', 's', 'i', 'd', 'e', 'n']], [.ref 1, .lit [' ', 'd', 'a', 'y', ' ', 'a', 'g', 'o']]),
    (.seqs [.lit ['f', 'o', 'r', ' '], .grp 1 (.number), .lit [' ', 't', ' ', 's', 'i', 'd', 'e', 'n']], [.ref 1, .lit [' ', 'h', 'o', 'u', 'r', ' ', 'a', 'g', 'o']]),
    (.seqs [.lit ['f', 'o', 'r', ' '], .grp 1 (.number), .lit [' ', 'u', ' ', 's', 'i', 'd', 'e', 'n']], [.ref 1, .lit [' ', 'w', 'e', 'e', 'k', ' ', 'a', 'g', 'o']]),
    (.seqs [.lit ['o', 'm', ' '], .grp 1 (.number), .lit [' ', 'm', 'i', 'n', 'u', 't', 't', 'e', 'r']], [.lit ['i', 'n', ' '], .ref 1, .lit [' ', 'm', 'i', 'n', 'u', 't', 'e']]),
    (.seqs [.lit ['o', 'm', ' '], .grp 1 (.number), .lit [' ', 's', 'e', 'k', 'u', 'n', 'd', 'e', 'r']], [.lit ['i', 'n', ' '], .ref 1, .lit [' ', 's', 'e', 'c', 'o', 'n', 'd']]),
    (.seqs [.lit ['o', 'm', ' '], .grp 1 (.number), .lit [' ', 'm', 'a', 'n', 'e', 'd', 'e', 'r']], [.lit ['i', 'n', ' '], .ref 1, .lit [' ', 'm', 'o', 'n', 't', 'h']]),
    (.seqs [.lit ['o', 'm', ' '], .grp 1 (.number), .lit [' ', 'm', 'i', 'n', 'u', 't', 't']], [.lit ['i', 'n', ' '], .ref 1, .lit [' ', 'm', 'i', 'n', 'u', 't', 'e']]),
    (.seqs [.lit ['o', 'm', ' '], .grp 1 (.number), .lit [' ', 's', 'e', 'k', 'u', 'n', 'd']], [.lit ['i', 'n', ' '], .ref 1, .lit [' ', 's', 'e', 'c', 'o', 'n', 'd']]),
    (.seqs [.lit ['o', 'm', ' '], .grp 1 (.number), .lit [' ', 'm', 'a', 'n', 'e', 'd']], [.lit ['i', 'n', ' '], .ref 1, .lit [' ', 'm', 'o', 'n', 't', 'h']]),
    (.seqs [.lit ['o', 'm', ' '], .grp 1 (.number), .lit [' ', 't', 'i', 'm', 'e', 'r']], [.lit ['i', 'n', ' '], .ref 1, .lit [' ', 'h', 'o', 'u', 'r']]),
    (.seqs [.lit ['o', 'm', ' '], .grp 1 (.number), .lit [' ', 'd'], .cls false [.rng 'Ø' 'Ø', .rng 'ø' 'ø'], .lit ['g', 'n']], [.lit ['i', 'n', ' '], .ref 1, .lit [' ', 'd', 'a', 'y']]),
    (.seqs [.lit ['o', 'm', ' '], .grp 1 (.number), .lit [' ', 't', 'i', 'm', 'e']], [.lit ['i', 'n', ' '], .ref 1, .lit [' ', 'h', 'o', 'u', 'r']]),
    (.seqs [.lit ['o', 'm', ' '], .grp 1 (.number), .lit [' ', 'u', 'k', 'e', 'r']], [.lit ['i', 'n', ' '], .ref 1, .lit [' ', 'w', 'e', 'e', 'k']]),
    (.seqs [.lit ['o', 'm', ' '], .grp 1 (.number), .lit [' ', 'm', 'i', 'n']], [.lit ['i', 'n', ' '], .ref 1, .lit [' ', 'm', 'i', 'n', 'u', 't', 'e']]),
    (.seqs [.lit ['o', 'm', ' '], .grp 1 (.number), .lit [' ', 's', 'e', 'k']], [.lit ['i', 'n', ' '], .ref 1, .lit [' ', 's', 'e', 'c', 'o', 'n', 'd']]),
    (.seqs [.lit ['o', 'm', ' '], .grp 1 (.number), .lit [' ', 'u', 'k', 'e']], [.lit ['i', 'n', ' '], .ref 1, .lit [' ', 'w', 'e', 'e', 'k']]),
    (.seqs [.lit ['o', 'm', ' '], .grp 1 (.number), .lit [' ', 'a', 'r']], [.lit ['i', 'n', ' '], .ref 1, .lit [' ', 'y', 'e', 'a', 'r']]),
    (.seqs [.lit ['o', 'm', ' '], .grp 1 (.number), .lit [' ', 'm', 'd']], [.lit ['i', 'n', ' '], .ref 1, .lit [' ', 'm', 'o', 'n', 't', 'h']]),
    (.seqs [.lit ['o', 'm', ' '], .grp 1 (.number), .lit [' ', 'd']], [.lit ['i', 'n', ' '], .ref 1, .lit [' ', 'd', 'a', 'y']]),
    (.seqs [.lit ['o', 'm', ' '], .grp 1 (.number), .lit [' ', 't']], [.lit ['i', 'n', ' '], .ref 1, .lit [' ', 'h', 'o', 'u', 'r']]),
    (.seqs [.lit ['o', 'm', ' '], .grp 1 (.number), .lit [' ', 'u']], [.lit ['i', 'n', ' '], .ref 1, .lit [' ', 'w', 'e', 'e', 'k']]),
    (.seqs [.lit ['–'], .grp 1 (.number), .lit [' ', 'a', 'r']], [.ref 1, .lit [' ', 'y', 'e', 'a', 'r', ' ', 'a', 'g', 'o']])],
  rxCombined := some (.seqs [.grp 1 (.alts [.bos, .cls true [.letter, .mark, .digit], .lit ['_']]), .grp 2 (.alts [.seqs [.lit ['f', 'o', 'r', ' '], .number, .lit [' ', 'm', 'i', 'n', 'u', 't', 't', 'e', 'r', ' ', 's', 'i', 'd', 'e', 'n']], .seqs [.lit ['f', 'o', 'r', ' '], .number, .lit [' ', 's', 'e', 'k', 'u', 'n', 'd', 'e', 'r', ' ', 's', 'i', 'd', 'e', 'n']], .seqs [.lit ['f', 'o', 'r', ' '], .number, .lit [' ', 'm', 'a', 'n', 'e', 'd', 'e', 'r', ' ', 's', 'i', 'd', 'e', 'n']], .seqs [.lit ['f', 'o', 'r', ' '], .number, .lit [' ', 'm', 'i', 'n', 'u', 't', 't', ' ', 's', 'i', 'd', 'e', 'n']], .seqs [.lit ['f', 'o', 'r', ' '], .number, .lit [' ', 's', 'e', 'k', 'u', 'n', 'd', ' ', 's', 'i', 'd', 'e', 'n']], .seqs [.lit ['f', 'o', 'r', ' '], .number, .lit [' ', 'd', 'a', 'g', 'e', 'r', ' ', 's', 'i', 'd', 'e', 'n']], .seqs [.lit ['f', 'o', 'r', ' '], .number, .lit [' ', 'm', 'a', 'n', 'e', 'd', ' ', 's', 'i', 'd', 'e', 'n']], .seqs [.lit ['f', 'o', 'r', ' '], .number, .lit [' ', 't', 'i', 'm', 'e', 'r', ' ', 's', 'i', 'd', 'e', 'n']], .seqs [.lit ['f', 'o', 'r', ' '], .number, .lit [' ', 'd'], .cls false [.rng 'Ø' 'Ø', .rng 'ø' 'ø'], .lit ['g', 'n', ' ', 's', 'i', 'd', 'e', 'n']], .seqs [.lit ['f', 'o', 'r', ' '], .number, .lit [' ', 't', 'i', 'm', 'e', ' ', 's', 'i', 'd', 'e', 'n']], .seqs [.lit ['f', 'o', 'r', ' '], .number, .lit [' ', 'u', 'k', 'e', 'r', ' ', 's', 'i', 'd', 'e', 'n']], .seqs [.lit ['f', 'o', 'r', ' '], .number, .lit [' ', 'm', 'i', 'n', ' ', 's', 'i', 'd', 'e', 'n']], .seqs [.lit ['f', 'o', 'r', ' '], .number, .lit [' ', 's', 'e', 'k', ' ', 's', 'i', 'd', 'e', 'n']], .seqs [.lit ['f', 'o', 'r', ' '], .number, .lit [' ', 'u', 'k', 'e', ' ', 's', 'i', 'd', 'e', 'n']], .seqs [.lit ['f', 'o', 'r', ' '], .number, .lit [' ', 'a', 'r', ' ', 's', 'i', 'd', 'e', 'n']], .seqs [.lit ['f', 'o', 'r', ' '], .number, .lit [' ', 'm', 'd', ' ', 's', 'i', 'd', 'e', 'n']], .seqs [.lit ['f', 'o', 'r', ' '], .number, .lit [' ', 'd', ' ', 's', 'i', 'd', 'e', 'n']], .seqs [.lit ['f', 'o', 'r', ' '], .number, .lit [' ', 't', ' ', 's', 'i', 'd', 'e', 'n']], .seqs [.lit ['f', 'o', 'r', ' '], .number, .lit [' ', 'u', ' ', 's', 'i', 'd', 'e', 'n']], .seqs [.lit ['o', 'm', ' '], .number, .lit [' ', 'm', 'i', 'n', 'u', 't', 't', 'e', 'r']], .seqs [.lit ['o', 'm', ' '], .number, .lit [' ', 's', 'e', 'k', 'u', 'n', 'd', 'e', 'r']], .seqs [.lit ['o', 'm', ' '], .number, .lit [' ', 'm', 'a', 'n', 'e', 'd', 'e', 'r']], .seqs [.lit ['o', 'm', ' '], .number, .lit [' ', 'm', 'i', 'n', 'u', 't', 't']], .seqs [.lit ['o', 'm', ' '], .number, .lit [' ', 's', 'e', 'k', 'u', 'n', 'd']], .seqs [.lit ['o', 'm', ' '], .number, .lit [' ', 'm', 'a', 'n', 'e', 'd']], .seqs [.lit ['o', 'm', ' '], .number, .lit [' ', 't', 'i', 'm', 'e', 'r']], .seqs [.lit ['o', 'm', ' '], .number, .lit [' ', 'd'], .cls false [.rng 'Ø' 'Ø', .rng 'ø' 'ø'], .lit ['g', 'n']], .seqs [.lit ['o', 'm', ' '], .number, .lit [' ', 't', 'i', 'm', 'e']], .seqs [.lit ['o', 'm', ' '], .number, .lit [' ', 'u', 'k', 'e', 'r']], .seqs [.lit ['o', 'm', ' '], .number, .lit [' ', 'm', 'i', 'n']], .seqs [.lit ['o', 'm', ' '], .number, .lit [' ', 's', 'e', 'k']], .seqs [.lit ['o', 'm', ' '], .number, .lit [' ', 'u', 'k', 'e']], .seqs [.lit ['o', 'm', ' '], .number, .lit [' ', 'a', 'r']], .seqs [.lit ['o', 'm', ' '], .number, .lit [' ', 'm', 'd']], .seqs [.lit ['o', 'm', ' '], .number, .lit [' ', 'd']], .seqs [.lit ['o', 'm', ' '], .number, .lit [' ', 't']], .seqs [.lit ['o', 'm', ' '], .number, .lit [' ', 'u']], .seqs [.lit ['–'], .number, .lit [' ', 'a', 'r']]]), .grp 3 (.alts [.eos, .cls true [.letter, .mark, .digit], .lit ['_']])], 3),
  rxExact := some (.seqs [.bos, .grp 1 (.alts [.seqs [.lit ['f', 'o', 'r', ' '], .number, .lit [' ', 'm', 'i', 'n', 'u', 't', 't', 'e', 'r', ' ', 's', 'i', 'd', 'e', 'n']], .seqs [.lit ['f', 'o', 'r', ' '], .number, .lit [' ', 's', 'e', 'k', 'u', 'n', 'd', 'e', 'r', ' ', 's', 'i', 'd', 'e', 'n']], .seqs [.lit ['f', 'o', 'r', ' '], .number, .lit [' ', 'm', 'a', 'n', 'e', 'd', 'e', 'r', ' ', 's', 'i', 'd', 'e', 'n']], .seqs [.lit ['f', 'o', 'r', ' '], .number, .lit [' ', 'm', 'i', 'n', 'u', 't', 't', ' ', 's', 'i', 'd', 'e', 'n']], .seqs [.lit ['f', 'o', 'r', ' '], .number, .lit [' ', 's', 'e', 'k', 'u', 'n', 'd', ' ', 's', 'i', 'd', 'e', 'n']], .seqs [.lit ['f', 'o', 'r', ' '], .number, .lit [' ', 'd', 'a', 'g', 'e', 'r', ' ', 's', 'i', 'd', 'e', 'n']], .seqs [.lit ['f', 'o', 'r', ' '], .number, .lit [' ', 'm', 'a', 'n', 'e', 'd', ' ', 's', 'i', 'd', 'e', 'n']], .seqs [.lit ['f', 'o', 'r', ' '], .number, .lit [' ', 't', 'i', 'm', 'e', 'r', ' ', 's', 'i', 'd', 'e', 'n']], .seqs [.lit ['f', 'o', 'r', ' '], .number, .lit [' ', 'd'], .cls false [.rng 'Ø' 'Ø', .rng 'ø' 'ø'], .lit ['g', 'n', ' ', 's', 'i', 'd', 'e', 'n']], .seqs [.lit ['f', 'o', 'r', ' '], .number, .lit [' ', 't', 'i', 'm', 'e', ' ', 's', 'i', 'd', 'e', 'n']], .seqs [.lit ['f', 'o', 'r', ' '], .number, .lit [' ', 'u', 'k', 'e', 'r', ' ', 's', 'i', 'd', 'e', 'n']], .seqs [.lit ['f', 'o', 'r', ' '], .number, .lit [' ', 'm', 'i', 'n', ' ', 's', 'i', 'd', 'e', 'n']], .seqs [.lit ['f', 'o', 'r', ' '], .number, .lit [' ', 's', 'e', 'k', ' ', 's', 'i', 'd', 'e', 'n']], .seqs [.lit ['f', 'o', 'r', ' '], .number, .lit [' ', 'u', 'k', 'e', ' ', 's', 'i', 'd', 'e', 'n']], .seqs [.lit ['f', 'o', 'r', ' '], .number, .lit [' ', 'a', 'r', ' ', 's', 'i', 'd', 'e', 'n']], .seqs [.lit ['f', 'o', 'r', ' '], .number, .lit [' ', 'm', 'd', ' ', 's', 'i', 'd', 'e', 'n']], .seqs [.lit ['f', 'o', 'r', ' '], .number, .lit [' ', 'd', ' ', 's', 'i', 'd', 'e', 'n']], .seqs [.lit ['f', 'o', 'r', ' '], .number, .lit [' ', 't', ' ', 's', 'i', 'd', 'e', 'n']], .seqs [.lit ['f', 'o', 'r', ' '], .number, .lit [' ', 'u', ' ', 's', 'i', 'd', 'e', 'n']], .seqs [.lit ['o', 'm', ' '], .number, .lit [' ', 'm', 'i', 'n', 'u', 't', 't', 'e', 'r']], .seqs [.lit ['o', 'm', ' '], .number, .lit [' ', 's', 'e', 'k', 'u', 'n', 'd', 'e', 'r']], .seqs [.lit ['o', 'm', ' '], .number, .lit [' ', 'm', 'a', 'n', 'e', 'd', 'e', 'r']], .seqs [.lit ['o', 'm', ' '], .number, .lit [' ', 'm', 'i', 'n', 'u', 't', 't']], .seqs [.lit ['o', 'm', ' '], .number, .lit [' ', 's', 'e', 'k', 'u', 'n', 'd']], .seqs [.lit ['o', 'm', ' '], .number, .lit [' ', 'm', 'a', 'n', 'e', 'd']], .seqs [.lit ['o', 'm', ' '], .number, .lit [' ', 't', 'i', 'm', 'e', 'r']], .seqs [.lit ['o', 'm', ' '], .number, .lit [' ', 'd'], .cls false [.rng 'Ø' 'Ø', .rng 'ø' 'ø'], .lit ['g', 'n']], .seqs [.lit ['o', 'm', ' '], .number, .lit [' ', 't', 'i', 'm', 'e']], .seqs [.lit ['o', 'm', ' '], .number, .lit [' ', 'u', 'k', 'e', 'r']], .seqs [.lit ['o', 'm', ' '], .number, .lit [' ', 'm', 'i', 'n']], .seqs [.lit ['o', 'm', ' '], .number, .lit [' ', 's', 'e', 'k']], .seqs [.lit ['o', 'm', ' '], .number, .lit [' ', 'u', 'k', 'e']], .seqs [.lit ['o', 'm', ' '], .number, .lit [' ', 'a', 'r']], .seqs [.lit ['o', 'm', ' '], .number, .lit [' ', 'm', 'd']], .seqs [.lit ['o', 'm', ' '], .number, .lit [' ', 'd']], .seqs [.lit ['o', 'm', ' '], .number, .lit [' ', 't']], .seqs [.lit ['o', 'm', ' '], .number, .lit [' ', 'u']], .seqs [.lit ['–'], .number, .lit [' ', 'a', 'r']]]), .eos]),
  knownWords :=
   [['d', 'e', 't', 't', 'e', ' ', 'm', 'i', 'n', 'u', 't', 't', 'e', 't'], ['d', 'e', 'n', 'n', 'e', ' ', 'm', 'a', 'n', 'e', 'd', 'e', 'n'], ['f', 'o', 'r', 'r', 'i', 'g', 'e', ' ', 'm', 'a', 'n', 'e', 'd'], ['d', 'e', 'n', 'n', 'e', ' ', 't', 'i', 'm', 'e', 'n'], ['f', 'o', 'r', 'r', 'i', 'g', 'e', ' ', 'u', 'k', 'e'], ['n', 'e', 's', 't', 'e', ' ', 'm', 'a', 'n', 'e', 'd'], ['d', 'e', 'n', 'n', 'e', ' ', 'u', 'k', 'e', 'n'], ['f', 'o', 'r', 'r', 'i', 'g', 'e', ' ', 'm', 'd'], ['n', 'e', 's', 't', 'e', ' ', 'u', 'k', 'e'], ['s', 'e', 'p', 't', 'e', 'm', 'b', 'e', 'r'], ['d', 'e', 'n', 'n', 'e', ' ', 'm', 'd'], ['d', 'e', 's', 'e', 'm', 'b', 'e', 'r'], ['i', ' ', 'm', 'o', 'r', 'g', 'e', 'n'], ['n', 'e', 's', 't', 'e', ' ', 'a', 'r'], ['n', 'e', 's', 't', 'e', ' ', 'm', 'd'], ['n', 'o', 'v', 'e', 'm', 'b', 'e', 'r'], ['f', 'e', 'b', 'r', 'u', 'a', 'r'], ['o', 'k', 't', 'o', 'b', 'e', 'r'], ['t', 'i', 'r', 's', 'd', 'a', 'g'], ['t', 'o', 'r', 's', 'd', 'a', 'g'], ['a', 'u', 'g', 'u', 's', 't'], ['f', 'r', 'e', 'd', 'a', 'g'], ['i', ' ', 'f', 'j', 'o', 'r'], ['j', 'a', 'n', 'u', 'a', 'r'], ['l', 'ø', 'r', 'd', 'a', 'g'], ['m', 'a', 'n', 'd', 'a', 'g'], ['m', 'i', 'n', 'u', 't', 't'], ['o', 'n', 's', 'd', 'a', 'g'], ['s', 'e', 'k', 'u', 'n', 'd'], ['s', 'ø', 'n', 'd', 'a', 'g'], ['a', 'p', 'r', 'i', 'l'], ['d', 'a', 'g', 'e', 'r'], ['i', ' ', 'd', 'a', 'g'], ['i', ' ', 'g', 'a', 'r'], ['m', 'a', 'n', 'e', 'd'], ['s', 'i', 'd', 'e', 'n'], ['t', 'i', 'm', 'e', 'r'], ['i', ' ', 'a', 'r'], ['j', 'u', 'l', 'i'], ['j', 'u', 'n', 'i'], ['m', 'a', 'r', 's'], ['t', 'i', 'm', 'e'], ['u', 'k', 'e', 'r'], ['a', 'p', 'r'], ['a', 'u', 'g'], ['d', 'a', 'g'], ['d', 'e', 's'], ['f', 'e', 'b'], ['f', 'r', 'e'], ['g', 'm', 't'], ['j', 'a', 'n'], ['j', 'u', 'l'], ['j', 'u', 'n'], ['l', 'ø', 'r'], ['m', 'a', 'i'], ['m', 'a', 'n'], ['m', 'a', 'r'], ['m', 'i', 'n'], ['m', 'n', 'd'], ['n', 'o', 'v'], ['o', 'k', 't'], ['o', 'n', 's'], ['s', 'e', 'k'], ['s', 'e', 'p'], ['s', 'ø', 'n'], ['t', 'i', 'r'], ['t', 'o', 'r'], ['u', 'k', 'e'], ['u', 't', 'c'], ['a', 'm'], ['a', 'r'], ['m', 'd'], ['n', 'a'], ['o', 'm'], ['p', 'm'], [' '], ['\''], ['+'], [','], ['-'], ['.'], ['/'], [':'], [';'], ['@'], ['['], [']'], ['d'], ['m'], ['s'], ['t'], ['u'], ['z'], ['|']] }

/-- internal/data/nb.go: `nb_SJ_Locale`. -/
def nb_SJLang : LangData := nb_SJDict

/-- internal/data/nd.go: `nd_Locale`. -/
def ndLang : LangData := { ndDict with
  knownWords :=
   [['i', 'n', 'y', 'a', 'n', 'g', 'a', 'c', 'a', 'l', 'e'], ['t', 'h', 'i', 's', ' ', 'm', 'i', 'n', 'u', 't', 'e'], ['l', 'a', 's', 't', ' ', 'm', 'o', 'n', 't', 'h'], ['n', 'c', 'w', 'a', 'b', 'a', 'k', 'a', 'z', 'i'], ['n', 'e', 'x', 't', ' ', 'm', 'o', 'n', 't', 'h'], ['n', 'k', 'w', 'e', 'n', 'k', 'w', 'e', 'z', 'i'], ['t', 'h', 'i', 's', ' ', 'm', 'o', 'n', 't', 'h'], ['z', 'i', 'b', 'a', 'n', 'd', 'l', 'e', 'l', 'a'], ['l', 'a', 's', 't', ' ', 'w', 'e', 'e', 'k'], ['l', 'a', 's', 't', ' ', 'y', 'e', 'a', 'r'], ['m', 'b', 'i', 'm', 'b', 'i', 't', 'h', 'o'], ['m', 'p', 'a', 'l', 'a', 'k', 'a', 'z', 'i'], ['n', 'e', 'x', 't', ' ', 'w', 'e', 'e', 'k'], ['n', 'e', 'x', 't', ' ', 'y', 'e', 'a', 'r'], ['n', 'h', 'l', 'a', 'n', 'g', 'u', 'l', 'a'], ['n', 'h', 'l', 'o', 'l', 'a', 'n', 'j', 'a'], ['n', 't', 'u', 'l', 'i', 'k', 'a', 'z', 'i'], ['t', 'h', 'i', 's', ' ', 'h', 'o', 'u', 'r'], ['t', 'h', 'i', 's', ' ', 'w', 'e', 'e', 'k'], ['t', 'h', 'i', 's', ' ', 'y', 'e', 'a', 'r'], ['i', 's', 'e', 'k', 'e', 'n', 'd', 'i'], ['m', 'g', 'q', 'i', 'b', 'e', 'l', 'o'], ['m', 'p', 'a', 'n', 'd', 'u', 'l', 'a'], ['s', 'i', 't', 'h', 'a', 't', 'h', 'u'], ['l', 'a', 'm', 'u', 'h', 'l', 'a'], ['s', 'i', 'h', 'l', 'a', 'n', 'u'], ['u', 'm', 'n', 'y', 'a', 'k', 'a'], ['u', 'm', 'u', 'z', 'u', 'z', 'u'], ['i', 'l', 'a', 'n', 'g', 'a'], ['k', 'u', 's', 'a', 's', 'a'], ['m', 'a', 'b', 'a', 's', 'a'], ['m', 'f', 'u', 'm', 'f', 'u'], ['s', 'i', 'b', 'i', 'l', 'i'], ['i', 'h', 'o', 'l', 'a'], ['i', 'v', 'i', 'k', 'i'], ['i', 'z', 'o', 'l', 'o'], ['l', 'w', 'e', 'z', 'i'], ['m', 'v', 'u', 'l', 'o'], ['s', 'o', 'n', 't', 'o'], ['m', 'p', 'a', 'l'], ['m', 'p', 'a', 'n'], ['n', 'h', 'l', 'a'], ['n', 'h', 'l', 'o'], ['s', 'i', 'n', 'e'], ['g', 'm', 't'], ['l', 'w', 'e'], ['m', 'a', 'b'], ['m', 'b', 'i'], ['m', 'f', 'u'], ['m', 'g', 'q'], ['m', 'v', 'u'], ['n', 'c', 'w'], ['n', 'k', 'w'], ['n', 'o', 'w'], ['n', 't', 'u'], ['s', 'i', 'b'], ['s', 'i', 'h'], ['s', 'i', 'n'], ['s', 'i', 't'], ['s', 'o', 'n'], ['u', 't', 'c'], ['z', 'i', 'b'], ['a', 'm'], ['p', 'm'], [' '], ['\''], ['+'], [','], ['-'], ['.'], ['/'], [':'], [';'], ['@'], ['['], [']'], ['z'], ['|']] }

/-- internal/data/ne.go: `ne_Locale`. -/
def neLang : LangData := { neDict with
  relativeRegexes :=
   [(.seqs [.grp 1 (.number), .lit [' ', 'म', 'ह', 'ि', 'न', 'ा', ' ', 'प', 'ह', 'ि', 'ल']], [.ref 1, .lit [' ', 'm', 'o', 'n', 't', 'h', ' ', 'a', 'g', 'o']]),
    (.seqs [.grp 1 (.number), .lit [' ', 'घ', 'ण', 'ट', 'ा', ' ', 'प', 'ह', 'ि', 'ल']], [.ref 1, .lit [' ', 'h', 'o', 'u', 'r', ' ', 'a', 'g', 'o']]),
    (.seqs [.grp 1 (.number), .lit [' ', 'म', 'ि', 'न', 'ट', ' ', 'प', 'ह', 'ि', 'ल']], [.ref 1, .lit [' ', 'm', 'i', 'n', 'u', 't', 'e', ' ', 'a', 'g', 'o']]),
    (.seqs [.grp 1 (.number), .lit [' ', 'स', 'क', 'ण', 'ड', ' ', 'प', 'ह', 'ि', 'ल']], [.ref 1, .lit [' ', 's', 'e', 'c', 'o', 'n', 'd', ' ', 'a', 'g', 'o']]),
    (.seqs [.grp 1 (.number), .lit [' ', 'ह', 'प', 'त', 'ा', ' ', 'प', 'ह', 'ि', 'ल']], [.ref 1, .lit [' ', 'w', 'e', 'e', 'k', ' ', 'a', 'g', 'o']]),
    (.seqs [.grp 1 (.number), .lit [' ', 'द', 'ि', 'न', ' ', 'प', 'ह', 'ि', 'ल']], [.ref 1, .lit [' ', 'd', 'a', 'y', ' ', 'a', 'g', 'o']]),
    (.seqs [.grp 1 (.number), .lit [' ', 'म', 'ह', 'ि', 'न', 'ा', 'म', 'ा']], [.lit ['i', 'n', ' '], .ref 1, .lit [' ', 'm', 'o', 'n', 't', 'h']]),
    (.seqs [.grp 1 (.number), .lit [' ', 'व', 'र', 'ष', ' ', 'अ', 'घ', 'ि']], [.ref 1, .lit [' ', 'y', 'e', 'a', 'r', ' ', 'a', 'g', 'o']]),
    (.seqs [.grp 1 (.number), .lit [' ', 'घ', 'ण', 'ट', 'ा', 'म', 'ा']], [.lit ['i', 'n', ' '], .ref 1, .lit [' ', 'h', 'o', 'u', 'r']]),
    (.seqs [.grp 1 (.number), .lit [' ', 'म', 'ि', 'न', 'ट', 'म', 'ा']], [.lit ['i', 'n', ' '], .ref 1, .lit [' ', 'm', 'i', 'n', 'u', 't', 'e']]),
    (.seqs [.grp 1 (.number), .lit [' ', 'स', 'क', 'ण', 'ड', 'म', 'ा']], [.lit ['i', 'n', ' '], .ref 1, .lit [' ', 's', 'e', 'c', 'o', 'n', 'd']]),
    (.seqs [.grp 1 (.number), .lit [' ', 'ह', 'प', 'त', 'ा', 'म', 'ा']], [.lit ['i', 'n', ' '], .ref 1, .lit [' ', 'w', 'e', 'e', 'k']]),
    (.seqs [.grp 1 (.number), .lit [' ', 'द', 'ि', 'न', 'म', 'ा']], [.lit ['i', 'n', ' '], .ref 1, .lit [' ', 'd', 'a', 'y']]),
    (.seqs [.grp 1 (.number), .lit [' ', 'व', 'र', 'ष', 'म', 'ा']], [.lit ['i', 'n', ' '], .ref 1, .lit [' ', 'y', 'e', 'a', 'r']])],
  rxCombined := some (.seqs [.grp 1 (.alts [.bos, .cls true [.letter, .mark, .digit], .lit ['_']]), .grp 2 (.alts [.seqs [.number, .lit [' ', 'म', 'ह', 'ि', 'न', 'ा', ' ', 'प', 'ह', 'ि', 'ल']], .seqs [.number, .lit [' ', 'घ', 'ण', 'ट', 'ा', ' ', 'प', 'ह', 'ि', 'ल']], .seqs [.number, .lit [' ', 'म', 'ि', 'न', 'ट', ' ', 'प', 'ह', 'ि', 'ल']], .seqs [.number, .lit [' ', 'स', 'क', 'ण', 'ड', ' ', 'प', 'ह', 'ि', 'ल']], .seqs [.number, .lit [' ', 'ह', 'प', 'त', 'ा', ' ', 'प', 'ह', 'ि', 'ल']], .seqs [.number, .lit [' ', 'द', 'ि', 'न', ' ', 'प', 'ह', 'ि', 'ल']], .seqs [.number, .lit [' ', 'म', 'ह', 'ि', 'न', 'ा', 'म', 'ा']], .seqs [.number, .lit [' ', 'व', 'र', 'ष', ' ', 'अ', 'घ', 'ि']], .seqs [.number, .lit [' ', 'घ', 'ण', 'ट', 'ा', 'म', 'ा']], .seqs [.number, .lit [' ', 'म', 'ि', 'न', 'ट', 'म', 'ा']], .seqs [.number, .lit [' ', 'स', 'क', 'ण', 'ड', 'म', 'ा']], .seqs [.number, .lit [' ', 'ह', 'प', 'त', 'ा', 'म', 'ा']], .seqs [.number, .lit [' ', 'द', 'ि', 'न', 'म', 'ा']], .seqs [.number, .lit [' ', 'व', 'र', 'ष', 'म', 'ा']]]), .grp 3 (.alts [.eos, .cls true [.letter, .mark, .digit], .lit ['_']])], 3),
  rxExact := some (.seqs [.bos, .grp 1 (.alts [.seqs [.number, .lit [' ', 'म', 'ह', 'ि', 'न', 'ा', ' ', 'प', 'ह', 'ि', 'ल']], .seqs [.number, .lit [' ', 'घ', 'ण', 'ट', 'ा', ' ', 'प', 'ह', 'ि', 'ल']], .seqs [.number, .lit [' ', 'म', 'ि', 'न', 'ट', ' ', 'प', 'ह', 'ि', 'ल']], .seqs [.number, .lit [' ', 'स', 'क', 'ण', 'ड', ' ', 'प', 'ह', 'ि', 'ल']], .seqs [.number, .lit [' ', 'ह', 'प', 'त', 'ा', ' ', 'प', 'ह', 'ि', 'ल']], .seqs [.number, .lit [' ', 'द', 'ि', 'न', ' ', 'प', 'ह', 'ि', 'ल']], .seqs [.number, .lit [' ', 'म', 'ह', 'ि', 'न', 'ा', 'म', 'ा']], .seqs [.number, .lit [' ', 'व', 'र', 'ष', ' ', 'अ', 'घ', 'ि']], .seqs [.number, .lit [' ', 'घ', 'ण', 'ट', 'ा', 'म', 'ा']], .seqs [.number, .lit [' ', 'म', 'ि', 'न', 'ट', 'म', 'ा']], .seqs [.number, .lit [' ', 'स', 'क', 'ण', 'ड', 'म', 'ा']], .seqs [.number, .lit [' ', 'ह', 'प', 'त', 'ा', 'म', 'ा']], .seqs [.number, .lit [' ', 'द', 'ि', 'न', 'म', 'ा']], .seqs [.number, .lit [' ', 'व', 'र', 'ष', 'म', 'ा']]]), .eos]),
  knownWords :=
   [['अ', 'र', 'क', 'ो', ' ', 'म', 'ह', 'ि', 'न', 'ा'], ['य', 'ह', 'ी', ' ', 'म', 'ि', 'न', 'ट', 'म', 'ा'], ['अ', 'र', 'क', 'ो', ' ', 'व', 'र', 'ष'], ['आ', 'उ', 'न', ' ', 'ह', 'प', 'त', 'ा'], ['ग', 'त', ' ', 'म', 'ह', 'ि', 'न', 'ा'], ['य', 'ो', ' ', 'घ', 'ड', 'ी', 'म', 'ा'], ['य', 'ो', ' ', 'म', 'ह', 'ि', 'न', 'ा'], ['ग', 'त', ' ', 'ह', 'प', 'त', 'ा'], ['ब', 'ि', 'ह', 'ि', 'ब', 'ा', 'र'], ['म', 'ङ', 'ग', 'ल', 'ब', 'ा', 'र'], ['य', 'ो', ' ', 'ह', 'प', 'त', 'ा'], ['अ', 'क', 'ट', 'ो', 'ब', 'र'], ['अ', 'प', 'र', 'ा', 'ह', 'न'], ['आ', 'इ', 'त', 'ब', 'ा', 'र'], ['ग', 'त', ' ', 'व', 'र', 'ष'], ['ड', 'ि', 'स', 'म', 'ब', 'र'], ['न', 'ो', 'भ', 'म', 'ब', 'र'], ['प', 'र', 'व', 'ा', 'ह', 'न'], ['फ', 'ब', 'र', 'अ', 'र', 'ी'], ['य', 'ो', ' ', 'व', 'र', 'ष'], ['श', 'क', 'र', 'ब', 'ा', 'र'], ['श', 'न', 'ि', 'ब', 'ा', 'र'], ['स', 'प', 'ट', 'म', 'ब', 'र'], ['स', 'ो', 'म', 'ब', 'ा', 'र'], ['अ', 'प', 'र', 'ि', 'ल'], ['ज', 'न', 'व', 'र', 'ी'], ['ब', 'ध', 'ब', 'ा', 'र'], ['म', 'ह', 'ि', 'न', 'ा'], ['अ', 'ग', 'स', 'ट'], ['घ', 'ण', 'ट', 'ा'], ['ज', 'ल', 'ा', 'ई'], ['ब', 'ि', 'ह', 'ि'], ['भ', 'ो', 'ल', 'ि'], ['म', 'ङ', 'ग', 'ल'], ['म', 'ा', 'र', 'च'], ['म', 'ि', 'न', 'ट'], ['स', 'क', 'न', 'ड'], ['ह', 'प', 'त', 'ा'], ['ह', 'ि', 'ज', 'ो'], ['g', 'm', 't'], ['u', 't', 'c'], ['आ', 'इ', 'त'], ['ब', 'र', 'ष'], ['ब', 'ा', 'र'], ['व', 'र', 'ष'], ['श', 'क', 'र'], ['श', 'न', 'ि'], ['स', 'ो', 'म'], ['a', 'm'], ['p', 'm'], ['अ', 'ब'], ['आ', 'ज'], ['ज', 'न'], ['ब', 'ध'], ['म', 'ई'], [' '], ['\''], ['+'], [','], ['-'], ['.'], ['/'], [':'], [';'], ['@'], ['['], [']'], ['z'], ['|'], ['म']] }

/-- internal/data/ne.go: `ne_IN_Locale`. -/
def ne_INLang : LangData := ne_INDict

/-- internal/data/nl.go: `nl_Locale`. -/
def nlLang : LangData := { nlDict with
  relativeRegexes :=
   [(.seqs [.grp 1 (.number), .lit [' ', 's', 'e', 'c', 'o', 'n', 'd', 'e', 'n', ' ', 'g', 'e', 'l', 'e', 'd', 'e', 'n']], [.ref 1, .lit [' ', 's', 'e', 'c', 'o', 'n', 'd', ' ', 'a', 'g', 'o']]),
    (.seqs [.grp 1 (.number), .lit [' ', 'm', 'a', 'a', 'n', 'd', 'e', 'n', ' ', 'g', 'e', 'l', 'e', 'd', 'e', 'n']], [.ref 1, .lit [' ', 'm', 'o', 'n', 't', 'h', ' ', 'a', 'g', 'o']]),
    (.seqs [.grp 1 (.number), .lit [' ', 'm', 'i', 'n', 'u', 't', 'e', 'n', ' ', 'g', 'e', 'l', 'e', 'd', 'e', 'n']], [.ref 1, .lit [' ', 'm', 'i', 'n', 'u', 't', 'e', ' ', 'a', 'g', 'o']]),
    (.seqs [.grp 1 (.number), .lit [' ', 's', 'e', 'c', 'o', 'n', 'd', 'e', ' ', 'g', 'e', 'l', 'e', 'd', 'e', 'n']], [.ref 1, .lit [' ', 's', 'e', 'c', 'o', 'n', 'd', ' ', 'a', 'g', 'o']]),
    (.seqs [.grp 1 (.number), .lit [' ', 'm', 'i', 'n', 'u', 'u', 't', ' ', 'g', 'e', 'l', 'e', 'd', 'e', 'n']], [.ref 1, .lit [' ', 'm', 'i', 'n', 'u', 't', 'e', ' ', 'a', 'g', 'o']]),
    (.seqs [.grp 1 (.number), .lit [' ', 'd', 'a', 'g', 'e', 'n', ' ', 'g', 'e', 'l', 'e', 'd', 'e', 'n']], [.ref 1, .lit [' ', 'd', 'a', 'y', ' ', 'a', 'g', 'o']]),
    (.seqs [.grp 1 (.number), .lit [' ', 'm', 'a', 'a', 'n', 'd', ' ', 'g', 'e', 'l', 'e', 'd', 'e', 'n']], [.ref 1, .lit [' ', 'm', 'o', 'n', 't', 'h', ' ', 'a', 'g', 'o']]),
    (.seqs [.grp 1 (.number), .lit [' ', 'w', 'e', 'k', 'e', 'n', ' ', 'g', 'e', 'l', 'e', 'd', 'e', 'n']], [.ref 1, .lit [' ', 'w', 'e', 'e', 'k', ' ', 'a', 'g', 'o']]),
    (.seqs [.lit ['o', 'v', 'e', 'r', ' '], .grp 1 (.number), .lit [' ', 's', 'e', 'c', 'o', 'n', 'd', 'e', 'n']], [.lit ['i', 'n', ' '], .ref 1, .lit [' ', 's', 'e', 'c', 'o', 'n', 'd']]),
    (.seqs [.grp 1 (.number), .lit [' ', 'j', 'a', 'a', 'r', ' ', 'g', 'e', 'l', 'e', 'd', 'e', 'n']], [.ref 1, .lit [' ', 'y', 'e', 'a', 'r', ' ', 'a', 'g', 'o']]),
    (.seqs [.grp 1 (.number), .lit [' ', 'w', 'e', 'e', 'k', ' ', 'g', 'e', 'l', 'e', 'd', 'e', 'n']], [.ref 1, .lit [' ', 'w', 'e', 'e', 'k', ' ', 'a', 'g', 'o']]),
    (.seqs [.lit ['o', 'v', 'e', 'r', ' '], .grp 1 (.number), .lit [' ', 'm', 'a', 'a', 'n', 'd', 'e', 'n']], [.lit ['i', 'n', ' '], .ref 1, .lit [' ', 'm', 'o', 'n', 't', 'h']]),
    (.seqs [.lit ['o', 'v', 'e', 'r', ' '], .grp 1 (.number), .lit [' ', 'm', 'i', 'n', 'u', 't', 'e', 'n']], [.lit ['i', 'n', ' '], .ref 1, .lit [' ', 'm', 'i', 'n', 'u', 't', 'e']]),
    (.seqs [.lit ['o', 'v', 'e', 'r', ' '], .grp 1 (.number), .lit [' ', 's', 'e', 'c', 'o', 'n', 'd', 'e']], [.lit ['i', 'n', ' '], .ref 1, .lit [' ', 's', 'e', 'c', 'o', 'n', 'd']]),
    (.seqs [.grp 1 (.number), .lit [' ', 'd', 'a', 'g', ' ', 'g', 'e', 'l', 'e', 'd', 'e', 'n']], [.ref 1, .lit [' ', 'd', 'a', 'y', ' ', 'a', 'g', 'o']]),
    (.seqs [.grp 1 (.number), .lit [' ', 'd', 'g', 'n', ' ', 'g', 'e', 'l', 'e', 'd', 'e', 'n']], [.ref 1, .lit [' ', 'd', 'a', 'y', ' ', 'a', 'g', 'o']]),
    (.seqs [.grp 1 (.number), .lit [' ', 'm', 'i', 'n', ' ', 'g', 'e', 'l', 'e', 'd', 'e', 'n']], [.ref 1, .lit [' ', 'm', 'i', 'n', 'u', 't', 'e', ' ', 'a', 'g', 'o']]),
    (.seqs [.grp 1 (.number), .lit [' ', 's', 'e', 'c', ' ', 'g', 'e', 'l', 'e', 'd', 'e', 'n']], [.ref 1, .lit [' ', 's', 'e', 'c', 'o', 'n', 'd', ' ', 'a', 'g', 'o']]),
    (.seqs [.grp 1 (.number), .lit [' ', 'u', 'u', 'r', ' ', 'g', 'e', 'l', 'e', 'd', 'e', 'n']], [.ref 1, .lit [' ', 'h', 'o', 'u', 'r', ' ', 'a', 'g', 'o']]),
    (.seqs [.lit ['o', 'v', 'e', 'r', ' '], .grp 1 (.number), .lit [' ', 'm', 'i', 'n', 'u', 'u', 't']], [.lit ['i', 'n', ' '], .ref 1, .lit [' ', 'm', 'i', 'n', 'u', 't', 'e']]),
    (.seqs [.lit ['o', 'v', 'e', 'r', ' '], .grp 1 (.number), .lit [' ', 'd', 'a', 'g', 'e', 'n']], [.lit ['i', 'n', ' '], .ref 1, .lit [' ', 'd', 'a', 'y']]),
    (.seqs [.lit ['o', 'v', 'e', 'r', ' '], .grp 1 (.number), .lit [' ', 'm', 'a', 'a', 'n', 'd']], [.lit ['i', 'n', ' '], .ref 1, .lit [' ', 'm', 'o', 'n', 't', 'h']]),
    (.seqs [.lit ['o', 'v', 'e', 'r', ' '], .grp 1 (.number), .lit [' ', 'w', 'e', 'k', 'e', 'n']], [.lit ['i', 'n', ' '], .ref 1, .lit [' ', 'w', 'e', 'e', 'k']]),
    (.seqs [.lit ['o', 'v', 'e', 'r', ' '], .grp 1 (.number), .lit [' ', 'j', 'a', 'a', 'r']], [.lit ['i', 'n', ' '], .ref 1, .lit [' ', 'y', 'e', 'a', 'r']]),
    (.seqs [.lit ['o', 'v', 'e', 'r', ' '], .grp 1 (.number), .lit [' ', 'w', 'e', 'e', 'k']], [.lit ['i', 'n', ' '], .ref 1, .lit [' ', 'w', 'e', 'e', 'k']]),
    (.seqs [.lit ['o', 'v', 'e', 'r', ' '], .grp 1 (.number), .lit [' ', 'd', 'a', 'g']], [.lit ['i', 'n', ' '], .ref 1, .lit [' ', 'd', 'a', 'y']]),
    (.seqs [.lit ['o', 'v', 'e', 'r', ' '], .grp 1 (.number), .lit [' ', 'd', 'g', 'n']], [.lit ['i', 'n', ' '], .ref 1, .lit [' ', 'd', 'a', 'y']]),
    (.seqs [.lit ['o', 'v', 'e', 'r', ' '], .grp 1 (.number), .lit [' ', 'm', 'i', 'n']], [.lit ['i', 'n', ' '], .ref 1, .lit [' ', 'm', 'i', 'n', 'u', 't', 'e']]),
    (.seqs [.lit ['o', 'v', 'e', 'r', ' '], .grp 1 (.number), .lit [' ', 's', 'e', 'c']], [.lit ['i', 'n', ' '], .ref 1, .lit [' ', 's', 'e', 'c', 'o', 'n', 'd']]),
    (.seqs [.lit ['o', 'v', 'e', 'r', ' '], .grp 1 (.number), .lit [' ', 'u', 'u', 'r']], [.lit ['i', 'n', ' '], .ref 1, .lit [' ', 'h', 'o', 'u', 'r']])],
  rxCombined := some (.seqs [.grp 1 (.alts [.bos, .cls true [.letter, .mark, .digit], .lit ['_']]), .grp 2 (.alts [.seqs [.number, .lit [' ', 's', 'e', 'c', 'o', 'n', 'd', 'e', 'n', ' ', 'g', 'e', 'l', 'e', 'd', 'e', 'n']], .seqs [.number, .lit [' ', 'm', 'a', 'a', 'n', 'd', 'e', 'n', ' ', 'g', 'e', 'l', 'e', 'd', 'e', 'n']], .seqs [.number, .lit [' ', 'm', 'i', 'n', 'u', 't', 'e', 'n', ' ', 'g', 'e', 'l', 'e', 'd', 'e', 'n']], .seqs [.number, .lit [' ', 's', 'e', 'c', 'o', 'n', 'd', 'e', ' ', 'g', 'e', 'l', 'e', 'd', 'e', 'n']], .seqs [.number, .lit [' ', 'm', 'i', 'n', 'u', 'u', 't', ' ', 'g', 'e', 'l', 'e', 'd', 'e', 'n']], .seqs [.number, .lit [' ', 'd', 'a', 'g', 'e', 'n', ' ', 'g', 'e', 'l', 'e', 'd', 'e', 'n']], .seqs [.number, .lit [' ', 'm', 'a', 'a', 'n', 'd', ' ', 'g', 'e', 'l', 'e', 'd', 'e', 'n']], .seqs [.number, .lit [' ', 'w', 'e', 'k', 'e', 'n', ' ', 'g', 'e', 'l', 'e', 'd', 'e', 'n']], .seqs [.lit ['o', 'v', 'e', 'r', ' '], .number, .lit [' ', 's', 'e', 'c', 'o', 'n', 'd', 'e', 'n']], .seqs [.number, .lit [' ', 'j', 'a', 'a', 'r', ' ', 'g', 'e', 'l', 'e', 'd', 'e', 'n']], .seqs [.number, .lit [' ', 'w', 'e', 'e', 'k', ' ', 'g', 'e', 'l', 'e', 'd', 'e', 'n']], .seqs [.lit ['o', 'v', 'e', 'r', ' '], .number, .lit [' ', 'm', 'a', 'a', 'n', 'd', 'e', 'n']], .seqs [.lit ['o', 'v', 'e', 'r', ' '], .number, .lit [' ', 'm', 'i', 'n', 'u', 't', 'e', 'n']], .seqs [.lit ['o', 'v', 'e', 'r', ' '], .number, .lit [' ', 's', 'e', 'c', 'o', 'n', 'd', 'e']], .seqs [.number, .lit [' ', 'd', 'a', 'g', ' ', 'g', 'e', 'l', 'e', 'd', 'e', 'n']], .seqs [.number, .lit [' ', 'd', 'g', 'n', ' ', 'g', 'e', 'l', 'e', 'd', 'e', 'n']], .seqs [.number, .lit [' ', 'm', 'i', 'n', ' ', 'g', 'e', 'l', 'e', 'd', 'e', 'n']], .seqs [.number, .lit [' ', 's', 'e', 'c', ' ', 'g', 'e', 'l', 'e', 'd', 'e', 'n']], .seqs [.number, .lit [' ', 'u', 'u', 'r', ' ', 'g', 'e', 'l', 'e', 'd', 'e', 'n']], .seqs [.lit ['o', 'v', 'e', 'r', ' '], .number, .lit [' ', 'm', 'i', 'n', 'u', 'u', 't']], .seqs [.lit ['o', 'v', 'e', 'r', ' '], .number, .lit [' ', 'd', 'a', 'g', 'e', 'n']], .seqs [.lit ['o', 'v', 'e', 'r', ' '], .number, .lit [' ', 'm', 'a', 'a', 'n', 'd']], .seqs [.lit ['o', 'v', 'e', 'r', ' '], .number, .lit [' ', 'w', 'e', 'k', 'e', 'n']], .seqs [.lit ['o', 'v', 'e', 'r', ' '], .number, .lit [' ', 'j', 'a', 'a', 'r']], .seqs [.lit ['o', 'v', 'e', 'r', ' '], .number, .lit [' ', 'w', 'e', 'e', 'k']], .seqs [.lit ['o', 'v', 'e', 'r', ' '], .number, .lit [' ', 'd', 'a', 'g']], .seqs [.lit ['o', 'v', 'e', 'r', ' '], .number, .lit [' ', 'd', 'g', 'n']], .seqs [.lit ['o', 'v', 'e', 'r', ' '], .number, .lit [' ', 'm', 'i', 'n']], .seqs [.lit ['o', 'v', 'e', 'r', ' '], .number, .lit [' ', 's', 'e', 'c']], .seqs [.lit ['o', 'v', 'e', 'r', ' '], .number, .lit [' ', 'u', 'u', 'r']]]), .grp 3 (.alts [.eos, .cls true [.letter, .mark, .digit], .lit ['_']])], 3),
  rxExact := some (.seqs [.bos, .grp 1 (.alts [.seqs [.number, .lit [' ', 's', 'e', 'c', 'o', 'n', 'd', 'e', 'n', ' ', 'g', 'e', 'l', 'e', 'd', 'e', 'n']], .seqs [.number, .lit [' ', 'm', 'a', 'a', 'n', 'd', 'e', 'n', ' ', 'g', 'e', 'l', 'e', 'd', 'e', 'n']], .seqs [.number, .lit [' ', 'm', 'i', 'n', 'u', 't', 'e', 'n', ' ', 'g', 'e', 'l', 'e', 'd', 'e', 'n']], .seqs [.number, .lit [' ', 's', 'e', 'c', 'o', 'n', 'd', 'e', ' ', 'g', 'e', 'l', 'e', 'd', 'e', 'n']], .seqs [.number, .lit [' ', 'm', 'i', 'n', 'u', 'u', 't', ' ', 'g', 'e', 'l', 'e', 'd', 'e', 'n']], .seqs [.number, .lit [' ', 'd', 'a', 'g', 'e', 'n', ' ', 'g', 'e', 'l', 'e', 'd', 'e', 'n']], .seqs [.number, .lit [' ', 'm', 'a', 'a', 'n', 'd', ' ', 'g', 'e', 'l', 'e', 'd', 'e', 'n']], .seqs [.number, .lit [' ', 'w', 'e', 'k', 'e', 'n', ' ', 'g', 'e', 'l', 'e', 'd', 'e', 'n']], .seqs [.lit ['o', 'v', 'e', 'r', ' '], .number, .lit [' ', 's', 'e', 'c', 'o', 'n', 'd', 'e', 'n']], .seqs [.number, .lit [' ', 'j', 'a', 'a', 'r', ' ', 'g', 'e', 'l', 'e', 'd', 'e', 'n']], .seqs [.number, .lit [' ', 'w', 'e', 'e', 'k', ' ', 'g', 'e', 'l', 'e', 'd', 'e', 'n']], .seqs [.lit ['o', 'v', 'e', 'r', ' '], .number, .lit [' ', 'm', 'a', 'a', 'n', 'd', 'e', 'n']], .seqs [.lit ['o', 'v', 'e', 'r', ' '], .number, .lit [' ', 'm', 'i', 'n', 'u', 't', 'e', 'n']], .seqs [.lit ['o', 'v', 'e', 'r', ' '], .number, .lit [' ', 's', 'e', 'c', 'o', 'n', 'd', 'e']], .seqs [.number, .lit [' ', 'd', 'a', 'g', ' ', 'g', 'e', 'l', 'e', 'd', 'e', 'n']], .seqs [.number, .lit [' ', 'd', 'g', 'n', ' ', 'g', 'e', 'l', 'e', 'd', 'e', 'n']], .seqs [.number, .lit [' ', 'm', 'i', 'n', ' ', 'g', 'e', 'l', 'e', 'd', 'e', 'n']], .seqs [.number, .lit [' ', 's', 'e', 'c', ' ', 'g', 'e', 'l', 'e', 'd', 'e', 'n']], .seqs [.number, .lit [' ', 'u', 'u', 'r', ' ', 'g', 'e', 'l', 'e', 'd', 'e', 'n']], .seqs [.lit ['o', 'v', 'e', 'r', ' '], .number, .lit [' ', 'm', 'i', 'n', 'u', 'u', 't']], .seqs [.lit ['o', 'v', 'e', 'r', ' '], .number, .lit [' ', 'd', 'a', 'g', 'e', 'n']], .seqs [.lit ['o', 'v', 'e', 'r', ' '], .number, .lit [' ', 'm', 'a', 'a', 'n', 'd']], .seqs [.lit ['o', 'v', 'e', 'r', ' '], .number, .lit [' ', 'w', 'e', 'k', 'e', 'n']], .seqs [.lit ['o', 'v', 'e', 'r', ' '], .number, .lit [' ', 'j', 'a', 'a', 'r']], .seqs [.lit ['o', 'v', 'e', 'r', ' '], .number, .lit [' ', 'w', 'e', 'e', 'k']], .seqs [.lit ['o', 'v', 'e', 'r', ' '], .number, .lit [' ', 'd', 'a', 'g']], .seqs [.lit ['o', 'v', 'e', 'r', ' '], .number, .lit [' ', 'd', 'g', 'n']], .seqs [.lit ['o', 'v', 'e', 'r', ' '], .number, .lit [' ', 'm', 'i', 'n']], .seqs [.lit ['o', 'v', 'e', 'r', ' '], .number, .lit [' ', 's', 'e', 'c']], .seqs [.lit ['o', 'v', 'e', 'r', ' '], .number, .lit [' ', 'u', 'u', 'r']]]), .eos]),
  knownWords :=
   [['b', 'i', 'n', 'n', 'e', 'n', ' ', 'e', 'e', 'n', ' ', 'm', 'i', 'n', 'u', 'u', 't'], ['b', 'i', 'n', 'n', 'e', 'n', ' ', 'e', 'e', 'n', ' ', 'u', 'u', 'r'], ['v', 'o', 'l', 'g', 'e', 'n', 'd', 'e', ' ', 'm', 'a', 'a', 'n', 'd'], ['v', 'o', 'l', 'g', 'e', 'n', 'd', 'e', ' ', 'w', 'e', 'e', 'k'], ['v', 'o', 'l', 'g', 'e', 'n', 'd', ' ', 'j', 'a', 'a', 'r'], ['v', 'o', 'r', 'i', 'g', 'e', ' ', 'm', 'a', 'a', 'n', 'd'], ['e', 'e', 'r', 'g', 'i', 's', 't', 'e', 'r', 'e', 'n'], ['v', 'o', 'r', 'i', 'g', 'e', ' ', 'j', 'a', 'a', 'r'], ['v', 'o', 'r', 'i', 'g', 'e', ' ', 'w', 'e', 'e', 'k'], ['d', 'e', 'z', 'e', ' ', 'm', 'a', 'a', 'n', 'd'], ['o', 'v', 'e', 'r', 'm', 'o', 'r', 'g', 'e', 'n'], ['v', 'o', 'r', 'i', 'g', ' ', 'j', 'a', 'a', 'r'], ['d', 'e', 'z', 'e', ' ', 'w', 'e', 'e', 'k'], ['d', 'o', 'n', 'd', 'e', 'r', 'd', 'a', 'g'], ['s', 'e', 'p', 't', 'e', 'm', 'b', 'e', 'r'], ['a', 'u', 'g', 'u', 's', 't', 'u', 's'], ['d', 'e', 'c', 'e', 'm', 'b', 'e', 'r'], ['d', 'i', 't', ' ', 'j', 'a', 'a', 'r'], ['f', 'e', 'b', 'r', 'u', 'a', 'r', 'i'], ['g', 'i', 's', 't', 'e', 'r', 'e', 'n'], ['n', 'o', 'v', 'e', 'm', 'b', 'e', 'r'], ['s', 'e', 'c', 'o', 'n', 'd', 'e', 'n'], ['w', 'o', 'e', 'n', 's', 'd', 'a', 'g'], ['z', 'a', 't', 'e', 'r', 'd', 'a', 'g'], ['d', 'i', 'n', 's', 'd', 'a', 'g'], ['g', 'e', 'l', 'e', 'd', 'e', 'n'], ['j', 'a', 'n', 'u', 'a', 'r', 'i'], ['m', 'a', 'a', 'n', 'd', 'a', 'g'], ['m', 'a', 'a', 'n', 'd', 'e', 'n'], ['m', 'i', 'n', 'u', 't', 'e', 'n'], ['o', 'k', 't', 'o', 'b', 'e', 'r'], ['s', 'e', 'c', 'o', 'n', 'd', 'e'], ['v', 'a', 'n', 'd', 'a', 'a', 'g'], ['v', 'r', 'i', 'j', 'd', 'a', 'g'], ['m', 'i', 'n', 'u', 'u', 't'], ['m', 'o', 'r', 'g', 'e', 'n'], ['z', 'o', 'n', 'd', 'a', 'g'], ['a', 'p', 'r', 'i', 'l'], ['d', 'a', 'g', 'e', 'n'], ['m', 'a', 'a', 'n', 'd'], ['m', 'a', 'a', 'r', 't'], ['w', 'e', 'k', 'e', 'n'], ['j', 'a', 'a', 'r'], ['j', 'u', 'l', 'i'], ['j', 'u', 'n', 'i'], ['w', 'e', 'e', 'k'], ['a', 'p', 'r'], ['a', 'u', 'g'], ['d', 'a', 'g'], ['d', 'e', 'c'], ['f', 'e', 'b'], ['g', 'm', 't'], ['j', 'a', 'n'], ['j', 'u', 'l'], ['j', 'u', 'n'], ['m', 'e', 'i'], ['m', 'i', 'n'], ['m', 'n', 'd'], ['m', 'r', 't'], ['n', 'o', 'v'], ['o', 'k', 't'], ['s', 'e', 'c'], ['s', 'e', 'p'], ['u', 't', 'c'], ['u', 'u', 'r'], ['a', 'm'], ['d', 'i'], ['d', 'o'], ['i', 'n'], ['j', 'r'], ['m', 'a'], ['n', 'u'], ['o', 'm'], ['p', 'm'], ['v', 'r'], ['w', 'k'], ['w', 'o'], ['z', 'a'], ['z', 'o'], [' '], ['\''], ['+'], [','], ['-'], ['.'], ['/'], [':'], [';'], ['@'], ['['], [']'], ['s'], ['z'], ['|']] }

/-- internal/data/nl.go: `nl_AW_Locale`. -/
def nl_AWLang : LangData := nl_AWDict

/-- internal/data/nl.go: `nl_BE_Locale`. -/
def nl_BELang : LangData := nl_BEDict

/-- internal/data/nl.go: `nl_BQ_Locale`. -/
def nl_BQLang : LangData := nl_BQDict

/-- internal/data/nl.go: `nl_CW_Locale`. -/
def nl_CWLang : LangData := nl_CWDict

/-- internal/data/nl.go: `nl_SR_Locale`. -/
def nl_SRLang : LangData := nl_SRDict

/-- internal/data/nl.go: `nl_SX_Locale`. -/
def nl_SXLang : LangData := nl_SXDict

/-- internal/data/nmg.go: `nmg_Locale`. -/
def nmgLang : LangData := { nmgDict with
  knownWords :=
   [['s', 'ɔ', 'n', 'd', 'ɔ', ' ', 'm', 'a', 'f', 'u', ' ', 'm', 'a', 'l', 'a', 'l'], ['m', 'a', 'b', 'a', 'g', 'a', ' ', 'm', 'a', ' ', 's', 'u', 'k', 'u', 'l'], ['n', 'g', 'w', 'ɛ', 'n', ' ', 'w', 'u', 'm', ' ', 'n', 'a', 'v', 'u', 'r'], ['s', 'ɔ', 'n', 'd', 'ɔ', ' ', 'm', 'a', 'f', 'u', ' ', 'm', 'a', 'b', 'a'], ['s', 'ɔ', 'n', 'd', 'ɔ', ' ', 'm', 'a', 'f', 'u', ' ', 'm', 'a', 'n', 'a'], ['n', 'g', 'w', 'ɛ', 'n', ' ', 'h', 'ɛ', 'm', 'b', 'u', 'ɛ', 'r', 'i'], ['n', 'g', 'w', 'ɛ', 'n', ' ', 'm', 'a', 't', 'a', 'h', 'r', 'a'], ['n', 'g', 'w', 'ɛ', 'n', ' ', 'r', 'ɛ', 'b', 'v', 'u', 'a'], ['n', 'g', 'w', 'ɛ', 'n', ' ', 'l', 'ɔ', 'm', 'b', 'i'], ['t', 'h', 'i', 's', ' ', 'm', 'i', 'n', 'u', 't', 'e'], ['l', 'a', 's', 't', ' ', 'm', 'o', 'n', 't', 'h'], ['n', 'e', 'x', 't', ' ', 'm', 'o', 'n', 't', 'h'], ['n', 'g', 'w', 'ɛ', 'n', ' ', 'n', 'l', 'a', 'l'], ['n', 'g', 'w', 'ɛ', 'n', ' ', 'n', 'm', 'b', 'a'], ['n', 'g', 'w', 'ɛ', 'n', ' ', 'n', 't', 'a', 'n'], ['n', 'g', 'w', 'ɛ', 'n', ' ', 'n', 't', 'u', 'o'], ['t', 'h', 'i', 's', ' ', 'm', 'o', 'n', 't', 'h'], ['l', 'a', 's', 't', ' ', 'w', 'e', 'e', 'k'], ['l', 'a', 's', 't', ' ', 'y', 'e', 'a', 'r'], ['n', 'e', 'x', 't', ' ', 'w', 'e', 'e', 'k'], ['n', 'e', 'x', 't', ' ', 'y', 'e', 'a', 'r'], ['n', 'g', 'w', 'ɛ', 'n', ' ', 'n', 'n', 'a'], ['n', 'g', 'w', 'ɛ', 'n', ' ', 'w', 'u', 'm'], ['t', 'h', 'i', 's', ' ', 'h', 'o', 'u', 'r'], ['t', 'h', 'i', 's', ' ', 'w', 'e', 'e', 'k'], ['t', 'h', 'i', 's', ' ', 'y', 'e', 'a', 'r'], ['k', 'r', 'i', 's', 'i', 'm', 'i', 'n'], ['n', 'a', 'k', 'u', 'g', 'u'], ['n', 'a', 'm', 'a', 'n', 'a'], ['s', 'a', 's', 'a', 'd', 'i'], ['m', 'p', 'a', 'l', 'a'], ['m', 'ɔ', 'n', 'd', 'ɔ'], ['n', 'g', 'w', 'ɛ', 'n'], ['n', 'y', 'i', 'ɛ', 'l'], ['s', 'ɔ', 'n', 'd', 'ɔ'], ['k', 'r', 'i', 's'], ['k', 'u', 'g', 'u'], ['m', 'a', 'n', 'a'], ['m', 'b', 'v', 'u'], ['n', 'g', '1', '0'], ['n', 'g', '1', '1'], ['w', 'u', 'l', 'a'], ['d', 'u', 'o'], ['d', 'ɔ', 'l'], ['g', 'm', 't'], ['m', 'b', 's'], ['m', 'ɔ', 'n'], ['n', 'g', '1'], ['n', 'g', '2'], ['n', 'g', '3'], ['n', 'g', '4'], ['n', 'g', '5'], ['n', 'g', '6'], ['n', 'g', '7'], ['n', 'g', '8'], ['n', 'g', '9'], ['n', 'o', 'w'], ['s', 'a', 's'], ['s', 'm', 'b'], ['s', 'm', 'l'], ['s', 'm', 'n'], ['s', 'ɔ', 'n'], ['u', 't', 'c'], ['a', 'm'], ['p', 'm'], [' '], ['\''], ['+'], [','], ['-'], ['.'], ['/'], [':'], [';'], ['@'], ['['], [']'], ['z'], ['|']] }

/-- internal/data/nn.go: `nn_Locale`. -/
def nnLang : LangData := { nnDict with
  relativeRegexes :=
   [(.seqs [.lit ['f', 'o', 'r', ' '], .grp 1 (.number), .lit [' ', 'm', 'i', 'n', 'u', 't', 't', 'e', 'r', ' ', 's', 'i', 'd', 'e', 'n']], [.ref 1, .lit [' ', 'm', 'i', 'n', 'u', 't', 'e', ' ', 'a', 'g', 'o']]),
    (.seqs [.lit ['f', 'o', 'r', ' '], .grp 1 (.number), .lit [' ', 's', 'e', 'k', 'u', 'n', 'd', 'e', 'r', ' ', 's', 'i', 'd', 'e', 'n']], [.ref 1, .lit [' ', 's', 'e', 'c', 'o', 'n', 'd', ' ', 'a', 'g', 'o']]),
    (.seqs [.lit ['f', 'o', 'r', ' '], .grp 1 (.number), .lit [' ', 'm', 'a', 'n', 'e', 'd', 'e', 'r', ' ', 's', 'i', 'd', 'e', 'n']], [.ref 1, .lit [' ', 'm', 'o', 'n', 't', 'h', ' ', 'a', 'g', 'o']]),
    (.seqs [.lit ['f', 'o', 'r', ' '], .grp 1 (.number), .lit [' ', 'm', 'i', 'n', 'u', 't', 't', ' ', 's', 'i', 'd', 'e', 'n']], [.ref 1, .lit [' ', 'm', 'i', 'n', 'u', 't', 'e', ' ', 'a', 'g', 'o']]),
    (.seqs [.lit ['f', 'o', 'r', ' '], .grp 1 (.number), .lit [' ', 's', 'e', 'k', 'u', 'n', 'd', ' ', 's', 'i', 'd', 'e', 'n']], [.ref 1, .lit [' ', 's', 'e', 'c', 'o', 'n', 'd', ' ', 'a', 'g', 'o']]),
    (.seqs [.lit ['f', 'o', 'r', ' '], .grp 1 (.number), .lit [' ', 'm', 'a', 'n', 'e', 'd', ' ', 's', 'i', 'd', 'e', 'n']], [.ref 1, .lit [' ', 'm', 'o', 'n', 't', 'h', ' ', 'a', 'g', 'o']]),
    (.seqs [.lit ['f', 'o', 'r', ' '], .grp 1 (.number), .lit [' ', 't', 'i', 'm', 'e', 'r', ' ', 's', 'i', 'd', 'e', 'n']], [.ref 1, .lit [' ', 'h', 'o', 'u', 'r', ' ', 'a', 'g', 'o']]),
    (.seqs [.lit ['f', 'o', 'r', ' '], .grp 1 (.number), .lit [' ', 'd'], .cls false [.rng 'Ø' 'Ø', .rng 'ø' 'ø'], .lit ['g', 'n', ' ', 's', 'i', 'd', 'e', 'n']], [.ref 1, .lit [' ', 'd', 'a', 'y', ' ', 'a', 'g', 'o']]),
    (.seqs [.lit ['f', 'o', 'r', ' '], .grp 1 (.number), .lit [' ', 't', 'i', 'm', 'e', ' ', 's', 'i', 'd', 'e', 'n']], [.ref 1, .lit [' ', 'h', 'o', 'u', 'r', ' ', 'a', 'g', 'o']]),
    (.seqs [.lit ['f', 'o', 'r', ' '], .grp 1 (.number), .lit [' ', 'u', 'k', 'e', 'r', ' ', 's', 'i', 'd', 'e', 'n']], [.ref 1, .lit [' ', 'w', 'e', 'e', 'k', ' ', 'a', 'g', 'o']]),
    (.seqs [.lit ['f', 'o', 'r', ' '], .grp 1 (.number), .lit [' ', 'u', 'k', 'e', ' ', 's', 'i', 'd', 'e', 'n']], [.ref 1, .lit [' ', 'w', 'e', 'e', 'k', ' ', 'a', 'g', 'o']]),
    (.seqs [.lit ['f', 'o', 'r', ' '], .grp 1 (.number), .lit [' ', 'a', 'r', ' ', 's', 'i', 'd', 'e', 'n']], [.ref 1, .lit [' ', 'y', 'e', 'a', 'r', ' ', 'a', 'g', 'o']]),
    (.seqs [.lit ['o', 'm', ' '], .grp 1 (.number), .lit [' ', 'm', 'i', 'n', 'u', 't', 't', 'e', 'r']], [.lit ['i', 'n', ' '], .ref 1, .lit [' ', 'm', 'i', 'n', 'u', 't', 'e']]),
    (.seqs [.lit ['o', 'm', ' '], .grp 1 (.number), .lit [' ', 's', 'e', 'k', 'u', 'n', 'd', 'e', 'r']], [.lit ['i', 'n', ' '], .ref 1, .lit [' ', 's', 'e', 'c', 'o', 'n', 'd']]),
    (.seqs [.lit ['o', 'm', ' '], .grp 1 (.number), .lit [' ', 'm', 'a', 'n', 'e', 'd', 'e', 'r']], [.lit ['i', 'n', ' '], .ref 1, .lit [' ', 'm', 'o', 'n', 't', 'h']]),
    (.seqs [.lit ['o', 'm', ' '], .grp 1 (.number), .lit [' ', 'm', 'i', 'n', 'u', 't', 't']], [.lit ['i', 'n', ' '], .ref 1, .lit [' ', 'm', 'i', 'n', 'u', 't', 'e']]),
    (.seqs [.lit ['o', 'm', ' '], .grp 1 (.number), .lit [' ', 's', 'e', 'k', 'u', 'n', 'd']], [.lit ['i', 'n', ' '], .ref 1, .lit [' ', 's', 'e', 'c', 'o', 'n', 'd']]),
    (.seqs [.lit ['o', 'm', ' '], .grp 1 (.number), .lit [' ', 'm', 'a', 'n', 'e', 'd']], [.lit ['i', 'n', ' '], .ref 1, .lit [' ', 'm', 'o', 'n', 't', 'h']]),
    (.seqs [.lit ['o', 'm', ' '], .grp 1 (.number), .lit [' ', 't', 'i', 'm', 'e', 'r']], [.lit ['i', 'n', ' '], .ref 1, .lit [' ', 'h', 'o', 'u', 'r']]),
    (.seqs [.lit ['o', 'm', ' '], .grp 1 (.number), .lit [' ', 'd'], .cls false [.rng 'Ø' 'Ø', .rng 'ø' 'ø'], .lit ['g', 'n']], [.lit ['i', 'n', ' '], .ref 1, .lit [' ', 'd', 'a', 'y']]),
    (.seqs [.lit ['o', 'm', ' '], .grp 1 (.number), .lit [' ', 't', 'i', 'm', 'e']], [.lit ['i', 'n', ' '], .ref 1, .lit [' ', 'h', 'o', 'u', 'r']]),
    (.seqs [.lit ['o', 'm', ' '], .grp 1 (.number), .lit [' ', 'u', 'k', 'e', 'r']], [.lit ['i', 'n', ' '], .ref 1, .lit [' ', 'w', 'e', 'e', 'k']]),
    (.seqs [.lit ['o', 'm', ' '], .grp 1 (.number), .lit [' ', 'u', 'k', 'e']], [.lit ['i', 'n', ' '], .ref 1, .lit [' ', 'w', 'e', 'e', 'k']]),
    (.seqs [.lit ['o', 'm', ' '], .grp 1 (.number), .lit [' ', 'a', 'r']], [.lit ['i', 'n', ' '], .ref 1, .lit [' ', 'y', 'e', 'a', 'r']])],
  rxCombined := some (.seqs [.grp 1 (.alts [.bos, .cls true [.letter, .mark, .digit], .lit ['_']]), .grp 2 (.alts [.seqs [.lit ['f', 'o', 'r', ' '], .number, .lit [' ', 'm', 'i', 'n', 'u', 't', 't', 'e', 'r', ' ', 's', 'i', 'd', 'e', 'n']], .seqs [.lit ['f', 'o', 'r', ' '], .number, .lit [' ', 's', 'e', 'k', 'u', 'n', 'd', 'e', 'r', ' ', 's', 'i', 'd', 'e', 'n']], .seqs [.lit ['f', 'o', 'r', ' '], .number, .lit [' ', 'm', 'a', 'n', 'e', 'd', 'e', 'r', ' ', 's', 'i', 'd', 'e', 'n']], .seqs [.lit ['f', 'o', 'r', ' '], .number, .lit [' ', 'm', 'i', 'n', 'u', 't', 't', ' ', 's', 'i', 'd', 'e', 'n']], .seqs [.lit ['f', 'o', 'r', ' '], .number, .lit [' ', 's', 'e', 'k', 'u', 'n', 'd', ' ', 's', 'i', 'd', 'e', 'n']], .seqs [.lit ['f', 'o', 'r', ' '], .number, .lit [' ', 'm', 'a', 'n', 'e', 'd', ' ', 's', 'i', 'd', 'e', 'n']], .seqs [.lit ['f', 'o', 'r', ' '], .number, .lit [' ', 't', 'i', 'm', 'e', 'r', ' ', 's', 'i', 'd', 'e', 'n']], .seqs [.lit ['f', 'o', 'r', ' '], .number, .lit [' ', 'd'], .cls false [.rng 'Ø' 'Ø', .rng 'ø' 'ø'], .lit ['g', 'n', ' ', 's', 'i', 'd', 'e', 'n']], .seqs [.lit ['f', 'o', 'r', ' '], .number, .lit [' ', 't', 'i', 'm', 'e', ' ', 's', 'i', 'd', 'e', 'n']], .seqs [.lit ['f', 'o', 'r', ' '], .number, .lit [' ', 'u', 'k', 'e', 'r', ' ', 's', 'i', 'd', 'e', 'n']], .seqs [.lit ['f', 'o', 'r', ' '], .number, .lit [' ', 'u', 'k', 'e', ' ', 's', 'i', 'd', 'e', 'n']], .seqs [.lit ['f', 'o', 'r', ' '], .number, .lit [' ', 'a', 'r', ' ', 's', 'i', 'd', 'e', 'n']], .seqs [.lit ['o', 'm', ' '], .number, .lit [' ', 'm', 'i', 'n', 'u', 't', 't', 'e', 'r']], .seqs [.lit ['o', 'm', ' '], .number, .lit [' ', 's', 'e', 'k', 'u', 'n', 'd', 'e', 'r']], .seqs [.lit ['o', 'm', ' '], .number, .lit [' ', 'm', 'a', 'n', 'e', 'd', 'e', 'r']], .seqs [.lit ['o', 'm', ' '], .number, .lit [' ', 'm', 'i', 'n', 'u', 't', 't']], .seqs [.lit ['o', 'm', ' '], .number, .lit [' ', 's', 'e', 'k', 'u', 'n', 'd']], .seqs [.lit ['o', 'm', ' '], .number, .lit [' ', 'm', 'a', 'n', 'e', 'd']], .seqs [.lit ['o', 'm', ' '], .number, .lit [' ', 't', 'i', 'm', 'e', 'r']], .seqs [.lit ['o', 'm', ' '], .number, .lit [' ', 'd'], .cls false [.rng 'Ø' 'Ø', .rng 'ø' 'ø'], .lit ['g', 'n']], .seqs [.lit ['o', 'm', ' '], .number, .lit [' ', 't', 'i', 'm', 'e']], .seqs [.lit ['o', 'm', ' '], .number, .lit [' ', 'u', 'k', 'e', 'r']], .seqs [.lit ['o', 'm', ' '], .number, .lit [' ', 'u', 'k', 'e']], .seqs [.lit ['o', 'm', ' '], .number, .lit [' ', 'a', 'r']]]), .grp 3 (.alts [.eos, .cls true [.letter, .mark, .digit], .lit ['_']])], 3),
  rxExact := some (.seqs [.bos, .grp 1 (.alts [.seqs [.lit ['f', 'o', 'r', ' '], .number, .lit [' ', 'm', 'i', 'n', 'u', 't', 't', 'e', 'r', ' ', 's', 'i', 'd', 'e', 'n']], .seqs [.lit ['f', 'o', 'r', ' '], .number, .lit [' ', 's', 'e', 'k', 'u', 'n', 'd', 'e', 'r', ' ', 's', 'i', 'd', 'e', 'n']], .seqs [.lit ['f', 'o', 'r', ' '], .number, .lit [' ', 'm', 'a', 'n', 'e', 'd', 'e', 'r', ' ', 's', 'i', 'd', 'e', 'n']], .seqs [.lit ['f', 'o', 'r', ' '], .number, .lit [' ', 'm', 'i', 'n', 'u', 't', 't', ' ', 's', 'i', 'd', 'e', 'n']], .seqs [.lit ['f', 'o', 'r', ' '], .number, .lit [' ', 's', 'e', 'k', 'u', 'n', 'd', ' ', 's', 'i', 'd', 'e', 'n']], .seqs [.lit ['f', 'o', 'r', ' '], .number, .lit [' ', 'm', 'a', 'n', 'e', 'd', ' ', 's', 'i', 'd', 'e', 'n']], .seqs [.lit ['f', 'o', 'r', ' '], .number, .lit [' ', 't', 'i', 'm', 'e', 'r', ' ', 's', 'i', 'd', 'e', 'n']], .seqs [.lit ['f', 'o', 'r', ' '], .number, .lit [' ', 'd'], .cls false [.rng 'Ø' 'Ø', .rng 'ø' 'ø'], .lit ['g', 'n', ' ', 's', 'i', 'd', 'e', 'n']], .seqs [.lit ['f', 'o', 'r', ' '], .number, .lit [' ', 't', 'i', 'm', 'e', ' ', 's', 'i', 'd', 'e', 'n']], .seqs [.lit ['f', 'o', 'r', ' '], .number, .lit [' ', 'u', 'k', 'e', 'r', ' ', 's', 'i', 'd', 'e', 'n']], .seqs [.lit ['f', 'o', 'r', ' '], .number, .lit [' ', 'u', 'k', 'e', ' ', 's', 'i', 'd', 'e', 'n']], .seqs [.lit ['f', 'o', 'r', ' '], .number, .lit [' ', 'a', 'r', ' ', 's', 'i', 'd', 'e', 'n']], .seqs [.lit ['o', 'm', ' '], .number, .lit [' ', 'm', 'i', 'n', 'u', 't', 't', 'e', 'r']], .seqs [.lit ['o', 'm', ' '], .number, .lit [' ', 's', 'e', 'k', 'u', 'n', 'd', 'e', 'r']], .seqs [.lit ['o', 'm', ' '], .number, .lit [' ', 'm', 'a', 'n', 'e', 'd', 'e', 'r']], .seqs [.lit ['o', 'm', ' '], .number, .lit [' ', 'm', 'i', 'n', 'u', 't', 't']], .seqs [.lit ['o', 'm', ' '], .number, .lit [' ', 's', 'e', 'k', 'u', 'n', 'd']], .seqs [.lit ['o', 'm', ' '], .number, .lit [' ', 'm', 'a', 'n', 'e', 'd']], .seqs [.lit ['o', 'm', ' '], .number, .lit [' ', 't', 'i', 'm', 'e', 'r']], .seqs [.lit ['o', 'm', ' '], .number, .lit [' ', 'd'], .cls false [.rng 'Ø' 'Ø', .rng 'ø' 'ø'], .lit ['g', 'n']], .seqs [.lit ['o', 'm', ' '], .number, .lit [' ', 't', 'i', 'm', 'e']], .seqs [.lit ['o', 'm', ' '], .number, .lit [' ', 'u', 'k', 'e', 'r']], .seqs [.lit ['o', 'm', ' '], .number, .lit [' ', 'u', 'k', 'e']], .seqs [.lit ['o', 'm', ' '], .number, .lit [' ', 'a', 'r']]]), .eos]),
  knownWords :=
   [['e', 't', 't', 'e', 'r', 'm', 'i', 'd', 'd', 'a', 'g'], ['t', 'h', 'i', 's', ' ', 'm', 'i', 'n', 'u', 't', 'e'], ['l', 'a', 's', 't', ' ', 'm', 'o', 'n', 't', 'h'], ['n', 'e', 'x', 't', ' ', 'm', 'o', 'n', 't', 'h'], ['t', 'h', 'i', 's', ' ', 'm', 'o', 'n', 't', 'h'], ['f', 'o', 'r', 'm', 'i', 'd', 'd', 'a', 'g'], ['l', 'a', 's', 't', ' ', 'w', 'e', 'e', 'k'], ['l', 'a', 's', 't', ' ', 'y', 'e', 'a', 'r'], ['n', 'e', 'x', 't', ' ', 'w', 'e', 'e', 'k'], ['n', 'e', 'x', 't', ' ', 'y', 'e', 'a', 'r'], ['s', 'e', 'p', 't', 'e', 'm', 'b', 'e', 'r'], ['t', 'h', 'i', 's', ' ', 'h', 'o', 'u', 'r'], ['t', 'h', 'i', 's', ' ', 'w', 'e', 'e', 'k'], ['t', 'h', 'i', 's', ' ', 'y', 'e', 'a', 'r'], ['d', 'e', 's', 'e', 'm', 'b', 'e', 'r'], ['i', ' ', 'm', 'o', 'r', 'g', 'o', 'n'], ['n', 'o', 'v', 'e', 'm', 'b', 'e', 'r'], ['f', 'e', 'b', 'r', 'u', 'a', 'r'], ['l', 'a', 'u', 'r', 'd', 'a', 'g'], ['o', 'k', 't', 'o', 'b', 'e', 'r'], ['t', 'o', 'r', 's', 'd', 'a', 'g'], ['a', 'u', 'g', 'u', 's', 't'], ['f', 'r', 'e', 'd', 'a', 'g'], ['j', 'a', 'n', 'u', 'a', 'r'], ['m', 'a', 'n', 'd', 'a', 'g'], ['m', 'i', 'n', 'u', 't', 't'], ['o', 'n', 's', 'd', 'a', 'g'], ['s', 'e', 'k', 'u', 'n', 'd'], ['s', 'ø', 'n', 'd', 'a', 'g'], ['t', 'y', 's', 'd', 'a', 'g'], ['a', 'p', 'r', 'i', 'l'], ['i', ' ', 'd', 'a', 'g'], ['i', ' ', 'g', 'a', 'r'], ['m', 'a', 'n', 'a', 'd'], ['j', 'u', 'l', 'i'], ['j', 'u', 'n', 'i'], ['m', 'a', 'r', 's'], ['t', 'i', 'm', 'e'], ['v', 'e', 'k', 'e'], ['a', 'p', 'r'], ['a', 'u', 'g'], ['d', 'a', 'g'], ['d', 'e', 's'], ['f', 'e', 'b'], ['f', 'r', 'e'], ['g', 'm', 't'], ['j', 'a', 'n'], ['j', 'u', 'l'], ['j', 'u', 'n'], ['l', 'a', 'u'], ['m', 'a', 'i'], ['m', 'a', 'n'], ['m', 'a', 'r'], ['n', 'o', 'v'], ['n', 'o', 'w'], ['o', 'k', 't'], ['o', 'n', 's'], ['s', 'e', 'p'], ['s', 'ø', 'n'], ['t', 'o', 'r'], ['t', 'y', 's'], ['u', 't', 'c'], ['a', 'm'], ['a', 'r'], ['e', 'm'], ['f', 'm'], ['f', 'r'], ['l', 'a'], ['m', 'a'], ['o', 'n'], ['p', 'm'], ['s', 'ø'], ['t', 'o'], ['t', 'y'], [' '], ['\''], ['+'], [','], ['-'], ['.'], ['/'], [':'], [';'], ['@'], ['['], [']'], ['z'], ['|']] }

/-- internal/data/nnh.go: `nnh_Locale`. -/
def nnhLang : LangData := { nnhDict with
  knownWords :=
   [['m', 'b', 'ɔ', 'ɔ', 'n', 't', 'e', ' ', 't', 's', 'e', 't', 's', 'ɛ', 'ɛ', ' ', 'l', 'y', 'ɛ', '\''], ['j', 'u', 'ɔ', ' ', 'g', 'w', 'i', 'e', ' ', 'a', ' ', 'n', 'e', ' ', 'n', 't', 'o', 'o'], ['s', 'a', 'ŋ', ' ', 't', 'y', 'ɛ', 'b', ' ', 't', 'y', 'ɛ', 'b', ' ', 'm', 'b', 'ʉ', 'ŋ'], ['j', 'u', 'ɔ', ' ', 'g', 'w', 'i', 'e', ' ', 'a', ' ', 'k', 'a', ' ', 't', 'ɔ', 'g'], ['m', 'b', 'ɔ', 'ɔ', 'n', 't', 'e', ' ', 'm', 'v', 'f', 'o', ' ', 'l', 'y', 'ɛ', '\''], ['s', 'a', 'ŋ', ' ', 't', 'a', 'ŋ', 'a', ' ', 't', 's', 'e', 't', 's', 'a', '\''], ['s', 'a', 'ŋ', ' ', 't', 's', 'e', 't', 's', 'ɛ', 'ɛ', ' ', 'l', 'u', 'm'], ['m', 'v', 'f', 'o', ' ', 'm', 'a', 'g', 'a', ' ', 'l', 'y', 'ɛ', '\''], ['s', 'a', 'ŋ', ' ', 'l', 'e', 'p', 'y', 'e', ' ', 's', 'h', 'u', 'm'], ['s', 'a', 'ŋ', ' ', 'n', 'g', 'w', 'ɔ', '\'', ' ', 'm', 'b', 'y', 'ɛ'], ['s', 'a', 'ŋ', ' ', 'k', 'a', 'g', ' ', 'n', 'g', 'w', 'o', 'ŋ'], ['l', 'y', 'ɛ', '\'', 'ɛ', ' ', 's', 'w', 'i', 'ŋ', 't', 'e'], ['s', 'a', 'ŋ', ' ', 't', 's', 'ɛ', 'ɛ', ' ', 'c', 'y', 'o'], ['t', 's', 'e', 't', 's', 'ɛ', 'ɛ', ' ', 'l', 'y', 'ɛ', '\''], ['s', 'a', 'ŋ', ' ', 'm', 'e', 'j', 'w', 'o', 'ŋ', 'o'], ['s', 'a', 'ŋ', ' ', 'n', 'j', 'y', 'o', 'l', 'a', '\''], ['t', 'h', 'i', 's', ' ', 'm', 'i', 'n', 'u', 't', 'e'], ['l', 'a', 's', 't', ' ', 'm', 'o', 'n', 't', 'h'], ['n', 'e', 'x', 't', ' ', 'm', 'o', 'n', 't', 'h'], ['t', 'h', 'i', 's', ' ', 'm', 'o', 'n', 't', 'h'], ['l', 'a', 's', 't', ' ', 'w', 'e', 'e', 'k'], ['l', 'a', 's', 't', ' ', 'y', 'e', 'a', 'r'], ['m', 'a', 'g', 'a', ' ', 'l', 'y', 'ɛ', '\''], ['m', 'b', 'a', '\'', 'a', 'm', 'b', 'a', '\''], ['m', 'v', 'f', 'o', ' ', 'l', 'y', 'ɛ', '\''], ['n', 'e', 'x', 't', ' ', 'w', 'e', 'e', 'k'], ['n', 'e', 'x', 't', ' ', 'y', 'e', 'a', 'r'], ['t', 'h', 'i', 's', ' ', 'h', 'o', 'u', 'r'], ['t', 'h', 'i', 's', ' ', 'w', 'e', 'e', 'k'], ['t', 'h', 'i', 's', ' ', 'y', 'e', 'a', 'r'], ['n', 'c', 'w', 'o', 'n', 'z', 'e', 'm'], ['s', 'a', 'ŋ', ' ', 'm', 'b', 'ʉ', 'ŋ'], ['f', 'ʉ', '\'', ' ', 'n', 'e', 'm'], ['l', 'y', 'ɛ', '\'', 'ɔ', 'ɔ', 'n'], ['s', 'a', 'ŋ', ' ', 'c', 'y', 'o'], ['s', 'a', 'ŋ', ' ', 'l', 'u', 'm'], ['m', 'i', 'n', 'u', 't', 'e'], ['s', 'e', 'c', 'o', 'n', 'd'], ['m', 'o', 'n', 't', 'h'], ['l', 'y', 'ɛ', '\''], ['n', 'g', 'u', '\''], ['w', 'e', 'e', 'k'], ['g', 'm', 't'], ['n', 'o', 'w'], ['u', 't', 'c'], ['a', 'm'], ['p', 'm'], [' '], ['\''], ['+'], [','], ['-'], ['.'], ['/'], [':'], [';'], ['@'], ['['], [']'], ['z'], ['|']] }

/-- internal/data/nus.go: `nus_Locale`. -/
def nusLang : LangData := { nusDict with
  knownWords :=
   [['t', 'i', 'o', 'p', ' ', 't', 'h', 'a', 'r', ' ', 'p', 'ɛ', 't'], ['d', 'h', 'i', 'e', 'e', 'c', ' ', 'l', 'a', 't', 'n', 'i'], ['t', 'i', 'o', 'p', ' ', 'i', 'n', ' ', 'd', 'i', 'i', 't'], ['b', 'a', 'k', 'ɛ', 'l', ' ', 'l', 'a', 't', 'n', 'i'], ['t', 'h', 'i', 's', ' ', 'm', 'i', 'n', 'u', 't', 'e'], ['ŋ', 'u', 'a', 'a', 'n', ' ', 'l', 'a', 't', 'n', 'i'], ['d', 'i', 'ɔ', 'k', ' ', 'l', 'a', 't', 'n', 'i'], ['l', 'a', 's', 't', ' ', 'm', 'o', 'n', 't', 'h'], ['n', 'e', 'x', 't', ' ', 'm', 'o', 'n', 't', 'h'], ['p', 'a', 'y', ' ', 'y', 'i', 'e', 't', 'n', 'i'], ['t', 'h', 'i', 's', ' ', 'm', 'o', 'n', 't', 'h'], ['c', 'a', 'ŋ', ' ', 'k', 'u', 'ɔ', 't', 'h'], ['l', 'a', 's', 't', ' ', 'w', 'e', 'e', 'k'], ['l', 'a', 's', 't', ' ', 'y', 'e', 'a', 'r'], ['n', 'e', 'x', 't', ' ', 'w', 'e', 'e', 'k'], ['n', 'e', 'x', 't', ' ', 'y', 'e', 'a', 'r'], ['r', 'ɛ', 'w', ' ', 'l', 'a', 't', 'n', 'i'], ['t', 'h', 'i', 's', ' ', 'h', 'o', 'u', 'r'], ['t', 'h', 'i', 's', ' ', 'w', 'e', 'e', 'k'], ['t', 'h', 'i', 's', ' ', 'y', 'e', 'a', 'r'], ['j', 'i', 'e', 'c', ' ', 'l', 'a', 't'], ['k', 'o', 'r', 'n', 'y', 'o', 'o', 't'], ['t', 'h', 'ɛ', 'k', 'ɛ', 'n', 'i'], ['d', 'h', 'i', 'e', 'e', 'c'], ['b', 'a', 'k', 'ɛ', 'l'], ['d', 'u', 'ɔ', 'ɔ', 'ŋ'], ['l', 'a', 'a', 't', 'h'], ['m', 'i', 'n', 'i', 't'], ['t', 'h', 'a', 'a', 'k'], ['t', 'h', 'o', 'o', 'r'], ['ŋ', 'u', 'a', 'a', 'n'], ['d', 'i', 'ɔ', 'k'], ['d', 'u', 'a', 't'], ['d', 'u', 'ɔ', 'ɔ'], ['g', 'u', 'a', 'k'], ['j', 'i', 'e', 'c'], ['j', 'i', 'ɔ', 'k'], ['r', 'u', 'u', 'n'], ['r', 'u', 'ɔ', 'n'], ['t', 'h', 'o', 'o'], ['t', 'i', 'o', 'p'], ['t', 'ɛ', 'ɛ', 'r'], ['w', 'a', 'l', 'ɛ'], ['c', 'a', 'ŋ'], ['d', 'u', 'a'], ['g', 'm', 't'], ['k', 'o', 'r'], ['k', 'u', 'r'], ['l', 'a', 'a'], ['n', 'o', 'w'], ['p', 'a', 'n'], ['p', 'a', 'y'], ['p', 'ɛ', 't'], ['r', 'ɛ', 'w'], ['t', 'i', 'd'], ['t', 'ɛ', 'ɛ'], ['u', 't', 'c'], ['a', 'm'], ['p', 'm'], ['r', 'w'], ['t', 'ŋ'], [' '], ['\''], ['+'], [','], ['-'], ['.'], ['/'], [':'], [';'], ['@'], ['['], [']'], ['z'], ['|']] }

/-- internal/data/nyn.go: `nyn_Locale`. -/
def nynLang : LangData := { nynDict with
  knownWords :=
   [['o', 'k', 'w', 'a', 'i', 'k', 'u', 'm', 'i', ' ', 'n', 'a', ' ', 'i', 'b', 'i', 'r', 'i'], ['o', 'k', 'w', 'a', 'i', 'k', 'u', 'm', 'i', ' ', 'n', 'a', ' ', 'k', 'u', 'm', 'w', 'e'], ['o', 'b', 'u', 'c', 'w', 'e', 'k', 'a', '/', 'e', 's', 'e', 'k', 'e', 'n', 'd', 'i'], ['o', 'k', 'w', 'a', 'm', 'u', 's', 'h', 'a', 'n', 'j', 'u'], ['n', 'y', 'e', 'n', 'k', 'y', 'a', 'k', 'a', 'r', 'e'], ['n', 'y', 'o', 'm', 'w', 'a', 'b', 'a', 'z', 'y', 'o'], ['o', 'k', 'w', 'a', 'k', 'a', 's', 'h', 'a', 't', 'u'], ['o', 'k', 'w', 'a', 'k', 'a', 't', 'a', 'a', 'n', 'a'], ['o', 'k', 'w', 'a', 'm', 'u', 'k', 'a', 'a', 'g', 'a'], ['o', 'k', 'w', 'a', 'm', 'u', 'n', 'a', 'a', 'n', 'a'], ['o', 'k', 'w', 'o', 'k', 'u', 'b', 'a', 'n', 'z', 'a'], ['o', 'r', 'w', 'a', 'k', 'a', 's', 'h', 'a', 't', 'u'], ['o', 'r', 'w', 'a', 'k', 'a', 't', 'a', 'a', 'n', 'o'], ['o', 'r', 'w', 'a', 'm', 'u', 'k', 'a', 'a', 'g', 'a'], ['o', 'r', 'w', 'o', 'k', 'u', 'b', 'a', 'n', 'z', 'a'], ['t', 'h', 'i', 's', ' ', 'm', 'i', 'n', 'u', 't', 'e'], ['l', 'a', 's', 't', ' ', 'm', 'o', 'n', 't', 'h'], ['n', 'e', 'x', 't', ' ', 'm', 'o', 'n', 't', 'h'], ['o', 'k', 'w', 'a', 'k', 'a', 'b', 'i', 'r', 'i'], ['o', 'k', 'w', 'a', 'm', 'w', 'e', 'n', 'd', 'a'], ['o', 'r', 'w', 'a', 'k', 'a', 'b', 'i', 'r', 'i'], ['t', 'h', 'i', 's', ' ', 'm', 'o', 'n', 't', 'h'], ['l', 'a', 's', 't', ' ', 'w', 'e', 'e', 'k'], ['l', 'a', 's', 't', ' ', 'y', 'e', 'a', 'r'], ['n', 'e', 'x', 't', ' ', 'w', 'e', 'e', 'k'], ['n', 'e', 'x', 't', ' ', 'y', 'e', 'a', 'r'], ['o', 'k', 'w', 'a', 'i', 'k', 'u', 'm', 'i'], ['t', 'h', 'i', 's', ' ', 'h', 'o', 'u', 'r'], ['t', 'h', 'i', 's', ' ', 'w', 'e', 'e', 'k'], ['t', 'h', 'i', 's', ' ', 'y', 'e', 'a', 'r'], ['e', 'd', 'a', 'k', 'i', 'i', 'k', 'a'], ['e', 'r', 'i', 'z', 'o', 'o', 'b', 'a'], ['o', 'k', 'w', 'a', 'k', 'a', 'n', 'a'], ['o', 'r', 'w', 'a', 'k', 'a', 'n', 'a'], ['e', 'i', 'z', 'o', 'o', 'b', 'a'], ['e', 's', 'a', 'n', 'd', 'e'], ['o', 'm', 'w', 'a', 'k', 'a'], ['o', 'm', 'w', 'e', 'z', 'i'], ['s', 'h', 'a', 'a', 'h', 'a'], ['s', 'a', 'n', 'd', 'e'], ['g', 'm', 't'], ['k', 'b', 'r'], ['k', 'b', 'z'], ['k', 'k', 'm'], ['k', 'k', 'n'], ['k', 'm', 'k'], ['k', 'm', 'n'], ['k', 'm', 's'], ['k', 'm', 'w'], ['k', 'n', 'b'], ['k', 'n', 'k'], ['k', 's', 't'], ['k', 't', 'n'], ['n', 'o', 'w'], ['o', 'k', 'b'], ['o', 'k', 'n'], ['o', 'k', 's'], ['o', 'k', 't'], ['o', 'm', 'k'], ['o', 'r', 'k'], ['s', 'a', 'n'], ['u', 't', 'c'], ['a', 'm'], ['p', 'm'], [' '], ['\''], ['+'], [','], ['-'], ['.'], ['/'], [':'], [';'], ['@'], ['['], [']'], ['z'], ['|']] }

/-- internal/data/om.go: `om_Locale`. -/
def omLang : LangData := { omDict with
  knownWords :=
   [['o', 'n', 'k', 'o', 'l', 'o', 'l', 'e', 'e', 's', 's', 'a'], ['b', 'i', 't', 'o', 'o', 't', 'e', 'e', 's', 's', 'a'], ['g', 'u', 'r', 'a', 'a', 'n', 'd', 'h', 'a', 'l', 'a'], ['t', 'h', 'i', 's', ' ', 'm', 'i', 'n', 'u', 't', 'e'], ['a', 'd', 'o', 'o', 'l', 'e', 'e', 's', 's', 'a'], ['l', 'a', 's', 't', ' ', 'm', 'o', 'n', 't', 'h'], ['n', 'e', 'x', 't', ' ', 'm', 'o', 'n', 't', 'h'], ['t', 'h', 'i', 's', ' ', 'm', 'o', 'n', 't', 'h'], ['w', 'a', 'x', 'a', 'b', 'a', 'j', 'j', 'i', 'i'], ['l', 'a', 's', 't', ' ', 'w', 'e', 'e', 'k'], ['l', 'a', 's', 't', ' ', 'y', 'e', 'a', 'r'], ['n', 'e', 'x', 't', ' ', 'w', 'e', 'e', 'k'], ['n', 'e', 'x', 't', ' ', 'y', 'e', 'a', 'r'], ['t', 'h', 'i', 's', ' ', 'h', 'o', 'u', 'r'], ['t', 'h', 'i', 's', ' ', 'w', 'e', 'e', 'k'], ['t', 'h', 'i', 's', ' ', 'y', 'e', 'a', 'r'], ['y', 'e', 's', 't', 'e', 'r', 'd', 'a', 'y'], ['f', 'u', 'u', 'l', 'b', 'a', 'n', 'a'], ['t', 'o', 'm', 'o', 'r', 'r', 'o', 'w'], ['a', 'm', 'a', 'j', 'j', 'i', 'i'], ['d', 'i', 'l', 'b', 'a', 't', 'a'], ['h', 'a', 'g', 'a', 'y', 'y', 'a'], ['j', 'i', 'm', 'a', 'a', 't', 'a'], ['k', 'a', 'm', 'i', 'i', 's', 'a'], ['q', 'i', 'b', 'x', 'a', 't', 'a'], ['s', 'a', 'd', 'a', 'a', 's', 'a'], ['s', 'a', 'n', 'b', 'a', 't', 'a'], ['w', 'i', 'i', 'x', 'a', 't', 'a'], ['c', 'a', 'a', 'm', 's', 'a'], ['m', 'i', 'n', 'u', 't', 'e'], ['m', 'u', 'd', 'd', 'e', 'e'], ['r', 'o', 'o', 'b', 'i', 'i'], ['s', 'e', 'c', 'o', 'n', 'd'], ['m', 'o', 'n', 't', 'h'], ['t', 'o', 'd', 'a', 'y'], ['e', 'l', 'b', 'a'], ['h', 'o', 'u', 'r'], ['w', 'e', 'e', 'k'], ['y', 'e', 'a', 'r'], ['a', 'd', 'o'], ['a', 'm', 'a'], ['b', 'i', 't'], ['c', 'a', 'm'], ['d', 'a', 'y'], ['d', 'i', 'l'], ['e', 'l', 'b'], ['f', 'u', 'l'], ['g', 'm', 't'], ['g', 'u', 'r'], ['h', 'a', 'g'], ['j', 'i', 'm'], ['k', 'a', 'm'], ['m', 'u', 'd'], ['n', 'o', 'w'], ['o', 'n', 'k'], ['q', 'i', 'b'], ['r', 'o', 'b'], ['s', 'a', 'd'], ['s', 'a', 'n'], ['u', 't', 'c'], ['w', 'a', 'x'], ['w', 'i', 'x'], ['a', 'm'], ['p', 'm'], ['w', 'b'], ['w', 'd'], [' '], ['\''], ['+'], [','], ['-'], ['.'], ['/'], [':'], [';'], ['@'], ['['], [']'], ['z'], ['|']] }

/-- internal/data/om.go: `om_KE_Locale`. -/
def om_KELang : LangData := om_KEDict

/-- internal/data/or.go: `or_Locale`. -/
def orLang : LangData := { orDict with
  knownWords :=
   [['t', 'h', 'i', 's', ' ', 'm', 'i', 'n', 'u', 't', 'e'], ['l', 'a', 's', 't', ' ', 'm', 'o', 'n', 't', 'h'], ['n', 'e', 'x', 't', ' ', 'm', 'o', 'n', 't', 'h'], ['t', 'h', 'i', 's', ' ', 'm', 'o', 'n', 't', 'h'], ['l', 'a', 's', 't', ' ', 'w', 'e', 'e', 'k'], ['l', 'a', 's', 't', ' ', 'y', 'e', 'a', 'r'], ['n', 'e', 'x', 't', ' ', 'w', 'e', 'e', 'k'], ['n', 'e', 'x', 't', ' ', 'y', 'e', 'a', 'r'], ['t', 'h', 'i', 's', ' ', 'h', 'o', 'u', 'r'], ['t', 'h', 'i', 's', ' ', 'w', 'e', 'e', 'k'], ['t', 'h', 'i', 's', ' ', 'y', 'e', 'a', 'r'], ['y', 'e', 's', 't', 'e', 'r', 'd', 'a', 'y'], ['t', 'o', 'm', 'o', 'r', 'r', 'o', 'w'], ['ସ', 'େ', 'ପ', 'ଟ', 'େ', 'ମ', 'ବ', 'ର'], ['ମ', 'ଙ', 'ଗ', 'ଳ', 'ବ', 'ା', 'ର'], ['m', 'i', 'n', 'u', 't', 'e'], ['s', 'e', 'c', 'o', 'n', 'd'], ['ଅ', 'କ', 'ଟ', 'ୋ', 'ବ', 'ର'], ['ଜ', 'ା', 'ନ', 'ଆ', 'ର', 'ୀ'], ['ଡ', 'ସ', 'େ', 'ମ', 'ବ', 'ର'], ['ନ', 'ଭ', 'େ', 'ମ', 'ବ', 'ର'], ['ଫ', 'େ', 'ବ', 'ଆ', 'ର', 'ୀ'], ['ଶ', 'କ', 'ର', 'ବ', 'ା', 'ର'], ['ସ', 'ୋ', 'ମ', 'ବ', 'ା', 'ର'], ['m', 'o', 'n', 't', 'h'], ['t', 'o', 'd', 'a', 'y'], ['ଅ', 'ପ', 'ର', 'େ', 'ଲ'], ['ଗ', 'ର', 'ବ', 'ା', 'ର'], ['ବ', 'ଧ', 'ବ', 'ା', 'ର'], ['ମ', 'ା', 'ର', 'ଚ', 'ଚ'], ['ର', 'ବ', 'ବ', 'ା', 'ର'], ['ଶ', 'ନ', 'ବ', 'ା', 'ର'], ['h', 'o', 'u', 'r'], ['w', 'e', 'e', 'k'], ['y', 'e', 'a', 'r'], ['ଅ', 'ଗ', 'ଷ', 'ଟ'], ['ଜ', 'ଲ', 'ା', 'ଇ'], ['ମ', 'ଙ', 'ଗ', 'ଳ'], ['d', 'a', 'y'], ['g', 'm', 't'], ['n', 'o', 'w'], ['u', 't', 'c'], ['ଶ', 'କ', 'ର'], ['ସ', 'ୋ', 'ମ'], ['a', 'm'], ['p', 'm'], ['ଗ', 'ର'], ['ଜ', 'ନ'], ['ବ', 'ଧ'], ['ମ', 'ଇ'], ['ର', 'ବ'], ['ଶ', 'ନ'], [' '], ['\''], ['+'], [','], ['-'], ['.'], ['/'], [':'], [';'], ['@'], ['['], [']'], ['z'], ['|']] }

/-- internal/data/os.go: `os_Locale`. -/
def osLang : LangData := { osDict with
  relativeRegexes :=
   [(.seqs [.grp 1 (.number), .lit [' '], .cls false [.rng 'С' 'С', .rng 'с' 'с', .rng 'ᲃ' 'ᲃ'], .cls false [.rng 'А' 'А', .rng 'а' 'а'], .cls false [.rng 'Х' 'Х', .rng 'х' 'х'], .cls false [.rng 'А' 'А', .rng 'а' 'а'], .cls false [.rng 'Т' 'Т', .rng 'т' 'т', .rng 'ᲄ' 'ᲄ', .rng 'ᲅ' 'ᲅ'], .cls false [.rng 'Ы' 'Ы', .rng 'ы' 'ы'], .lit [' '], .cls false [.rng 'Р' 'Р', .rng 'р' 'р'], .cls false [.rng 'А' 'А', .rng 'а' 'а'], .cls false [.rng 'З' 'З', .rng 'з' 'з'], .cls false [.rng 'М' 'М', .rng 'м' 'м'], .cls false [.rng 'Ӕ' 'Ӕ', .rng 'ӕ' 'ӕ']], [.ref 1, .lit [' ', 'h', 'o', 'u', 'r', ' ', 'a', 'g', 'o']]),
    (.seqs [.grp 1 (.number), .lit [' '], .cls false [.rng 'С' 'С', .rng 'с' 'с', .rng 'ᲃ' 'ᲃ'], .cls false [.rng 'А' 'А', .rng 'а' 'а'], .cls false [.rng 'Х' 'Х', .rng 'х' 'х'], .cls false [.rng 'А' 'А', .rng 'а' 'а'], .cls false [.rng 'Т' 'Т', .rng 'т' 'т', .rng 'ᲄ' 'ᲄ', .rng 'ᲅ' 'ᲅ'], .cls false [.rng 'Ы' 'Ы', .rng 'ы' 'ы'], .lit [' '], .cls false [.rng 'Ф' 'Ф', .rng 'ф' 'ф'], .cls false [.rng 'Ӕ' 'Ӕ', .rng 'ӕ' 'ӕ'], .cls false [.rng 'С' 'С', .rng 'с' 'с', .rng 'ᲃ' 'ᲃ'], .cls false [.rng 'Т' 'Т', .rng 'т' 'т', .rng 'ᲄ' 'ᲄ', .rng 'ᲅ' 'ᲅ'], .cls false [.rng 'Ӕ' 'Ӕ', .rng 'ӕ' 'ӕ']], [.lit ['i', 'n', ' '], .ref 1, .lit [' ', 'h', 'o', 'u', 'r']]),
    (.seqs [.grp 1 (.number), .lit [' '], .cls false [.rng 'Б' 'Б', .rng 'б' 'б'], .cls false [.rng 'О' 'О', .rng 'о' 'о', .rng 'ᲂ' 'ᲂ'], .cls false [.rng 'Н' 'Н', .rng 'н' 'н'], .lit [' '], .cls false [.rng 'Р' 'Р', .rng 'р' 'р'], .cls false [.rng 'А' 'А', .rng 'а' 'а'], .cls false [.rng 'З' 'З', .rng 'з' 'з'], .cls false [.rng 'Д' 'Д', .rng 'д' 'д', .rng 'ᲁ' 'ᲁ'], .cls false [.rng 'Ӕ' 'Ӕ', .rng 'ӕ' 'ӕ'], .cls false [.rng 'Р' 'Р', .rng 'р' 'р']], [.ref 1, .lit [' ', 'd', 'a', 'y', ' ', 'a', 'g', 'o']]),
    (.seqs [.grp 1 (.number), .lit [' '], .cls false [.rng 'Б' 'Б', .rng 'б' 'б'], .cls false [.rng 'О' 'О', .rng 'о' 'о', .rng 'ᲂ' 'ᲂ'], .cls false [.rng 'Н' 'Н', .rng 'н' 'н'], .cls false [.rng 'Ы' 'Ы', .rng 'ы' 'ы'], .lit [' '], .cls false [.rng 'Р' 'Р', .rng 'р' 'р'], .cls false [.rng 'А' 'А', .rng 'а' 'а'], .cls false [.rng 'З' 'З', .rng 'з' 'з'], .cls false [.rng 'М' 'М', .rng 'м' 'м'], .cls false [.rng 'Ӕ' 'Ӕ', .rng 'ӕ' 'ӕ']], [.ref 1, .lit [' ', 'd', 'a', 'y', ' ', 'a', 'g', 'o']]),
    (.seqs [.grp 1 (.number), .lit [' '], .cls false [.rng 'Б' 'Б', .rng 'б' 'б'], .cls false [.rng 'О' 'О', .rng 'о' 'о', .rng 'ᲂ' 'ᲂ'], .cls false [.rng 'Н' 'Н', .rng 'н' 'н'], .cls false [.rng 'Ы' 'Ы', .rng 'ы' 'ы'], .lit [' '], .cls false [.rng 'Ф' 'Ф', .rng 'ф' 'ф'], .cls false [.rng 'Ӕ' 'Ӕ', .rng 'ӕ' 'ӕ'], .cls false [.rng 'С' 'С', .rng 'с' 'с', .rng 'ᲃ' 'ᲃ'], .cls false [.rng 'Т' 'Т', .rng 'т' 'т', .rng 'ᲄ' 'ᲄ', .rng 'ᲅ' 'ᲅ'], .cls false [.rng 'Ӕ' 'Ӕ', .rng 'ӕ' 'ӕ']], [.lit ['i', 'n', ' '], .ref 1, .lit [' ', 'd', 'a', 'y']])],
  rxCombined := some (.seqs [.grp 1 (.alts [.bos, .cls true [.letter, .mark, .digit], .lit ['_']]), .grp 2 (.alts [.seqs [.number, .lit [' '], .cls false [.rng 'С' 'С', .rng 'с' 'с', .rng 'ᲃ' 'ᲃ'], .cls false [.rng 'А' 'А', .rng 'а' 'а'], .cls false [.rng 'Х' 'Х', .rng 'х' 'х'], .cls false [.rng 'А' 'А', .rng 'а' 'а'], .cls false [.rng 'Т' 'Т', .rng 'т' 'т', .rng 'ᲄ' 'ᲄ', .rng 'ᲅ' 'ᲅ'], .cls false [.rng 'Ы' 'Ы', .rng 'ы' 'ы'], .lit [' '], .cls false [.rng 'Р' 'Р', .rng 'р' 'р'], .cls false [.rng 'А' 'А', .rng 'а' 'а'], .cls false [.rng 'З' 'З', .rng 'з' 'з'], .cls false [.rng 'М' 'М', .rng 'м' 'м'], .cls false [.rng 'Ӕ' 'Ӕ', .rng 'ӕ' 'ӕ']], .seqs [.number, .lit [' '], .cls false [.rng 'С' 'С', .rng 'с' 'с', .rng 'ᲃ' 'ᲃ'], .cls false [.rng 'А' 'А', .rng 'а' 'а'], .cls false [.rng 'Х' 'Х', .rng 'х' 'х'], .cls false [.rng 'А' 'А', .rng 'а' 'а'], .cls false [.rng 'Т' 'Т', .rng 'т' 'т', .rng 'ᲄ' 'ᲄ', .rng 'ᲅ' 'ᲅ'], .cls false [.rng 'Ы' 'Ы', .rng 'ы' 'ы'], .lit [' '], .cls false [.rng 'Ф' 'Ф', .rng 'ф' 'ф'], .cls false [.rng 'Ӕ' 'Ӕ', .rng 'ӕ' 'ӕ'], .cls false [.rng 'С' 'С', .rng 'с' 'с', .rng 'ᲃ' 'ᲃ'], .cls false [.rng 'Т' 'Т', .rng 'т' 'т', .rng 'ᲄ' 'ᲄ', .rng 'ᲅ' 'ᲅ'], .cls false [.rng 'Ӕ' 'Ӕ', .rng 'ӕ' 'ӕ']], .seqs [.number, .lit [' '], .cls false [.rng 'Б' 'Б', .rng 'б' 'б'], .cls false [.rng 'О' 'О', .rng 'о' 'о', .rng 'ᲂ' 'ᲂ'], .cls false [.rng 'Н' 'Н', .rng 'н' 'н'], .lit [' '], .cls false [.rng 'Р' 'Р', .rng 'р' 'р'], .cls false [.rng 'А' 'А', .rng 'а' 'а'], .cls false [.rng 'З' 'З', .rng 'з' 'з'], .cls false [.rng 'Д' 'Д', .rng 'д' 'д', .rng 'ᲁ' 'ᲁ'], .cls false [.rng 'Ӕ' 'Ӕ', .rng 'ӕ' 'ӕ'], .cls false [.rng 'Р' 'Р', .rng 'р' 'р']], .seqs [.number, .lit [' '], .cls false [.rng 'Б' 'Б', .rng 'б' 'б'], .cls false [.rng 'О' 'О', .rng 'о' 'о', .rng 'ᲂ' 'ᲂ'], .cls false [.rng 'Н' 'Н', .rng 'н' 'н'], .cls false [.rng 'Ы' 'Ы', .rng 'ы' 'ы'], .lit [' '], .cls false [.rng 'Р' 'Р', .rng 'р' 'р'], .cls false [.rng 'А' 'А', .rng 'а' 'а'], .cls false [.rng 'З' 'З', .rng 'з' 'з'], .cls false [.rng 'М' 'М', .rng 'м' 'м'], .cls false [.rng 'Ӕ' 'Ӕ', .rng 'ӕ' 'ӕ']], .seqs [.number, .lit [' '], .cls false [.rng 'Б' 'Б', .rng 'б' 'б'], .cls false [.rng 'О' 'О', .rng 'о' 'о', .rng 'ᲂ' 'ᲂ'], .cls false [.rng 'Н' 'Н', .rng 'н' 'н'], .cls false [.rng 'Ы' 'Ы', .rng 'ы' 'ы'], .lit [' '], .cls false [.rng 'Ф' 'Ф', .rng 'ф' 'ф'], .cls false [.rng 'Ӕ' 'Ӕ', .rng 'ӕ' 'ӕ'], .cls false [.rng 'С' 'С', .rng 'с' 'с', .rng 'ᲃ' 'ᲃ'], .cls false [.rng 'Т' 'Т', .rng 'т' 'т', .rng 'ᲄ' 'ᲄ', .rng 'ᲅ' 'ᲅ'], .cls false [.rng 'Ӕ' 'Ӕ', .rng 'ӕ' 'ӕ']]]), .grp 3 (.alts [.eos, .cls true [.letter, .mark, .digit], .lit ['_']])], 3),
  rxExact := some (.seqs [.bos, .grp 1 (.alts [.seqs [.number, .lit [' '], .cls false [.rng 'С' 'С', .rng 'с' 'с', .rng 'ᲃ' 'ᲃ'], .cls false [.rng 'А' 'А', .rng 'а' 'а'], .cls false [.rng 'Х' 'Х', .rng 'х' 'х'], .cls false [.rng 'А' 'А', .rng 'а' 'а'], .cls false [.rng 'Т' 'Т', .rng 'т' 'т', .rng 'ᲄ' 'ᲄ', .rng 'ᲅ' 'ᲅ'], .cls false [.rng 'Ы' 'Ы', .rng 'ы' 'ы'], .lit [' '], .cls false [.rng 'Р' 'Р', .rng 'р' 'р'], .cls false [.rng 'А' 'А', .rng 'а' 'а'], .cls false [.rng 'З' 'З', .rng 'з' 'з'], .cls false [.rng 'М' 'М', .rng 'м' 'м'], .cls false [.rng 'Ӕ' 'Ӕ', .rng 'ӕ' 'ӕ']], .seqs [.number, .lit [' '], .cls false [.rng 'С' 'С', .rng 'с' 'с', .rng 'ᲃ' 'ᲃ'], .cls false [.rng 'А' 'А', .rng 'а' 'а'], .cls false [.rng 'Х' 'Х', .rng 'х' 'х'], .cls false [.rng 'А' 'А', .rng 'а' 'а'], .cls false [.rng 'Т' 'Т', .rng 'т' 'т', .rng 'ᲄ' 'ᲄ', .rng 'ᲅ' 'ᲅ'], .cls false [.rng 'Ы' 'Ы', .rng 'ы' 'ы'], .lit [' '], .cls false [.rng 'Ф' 'Ф', .rng 'ф' 'ф'], .cls false [.rng 'Ӕ' 'Ӕ', .rng 'ӕ' 'ӕ'], .cls false [.rng 'С' 'С', .rng 'с' 'с', .rng 'ᲃ' 'ᲃ'], .cls false [.rng 'Т' 'Т', .rng 'т' 'т', .rng 'ᲄ' 'ᲄ', .rng 'ᲅ' 'ᲅ'], .cls false [.rng 'Ӕ' 'Ӕ', .rng 'ӕ' 'ӕ']], .seqs [.number, .lit [' '], .cls false [.rng 'Б' 'Б', .rng 'б' 'б'], .cls false [.rng 'О' 'О', .rng 'о' 'о', .rng 'ᲂ' 'ᲂ'], .cls false [.rng 'Н' 'Н', .rng 'н' 'н'], .lit [' '], .cls false [.rng 'Р' 'Р', .rng 'р' 'р'], .cls false [.rng 'А' 'А', .rng 'а' 'а'], .cls false [.rng 'З' 'З', .rng 'з' 'з'], .cls false [.rng 'Д' 'Д', .rng 'д' 'д', .rng 'ᲁ' 'ᲁ'], .cls false [.rng 'Ӕ' 'Ӕ', .rng 'ӕ' 'ӕ'], .cls false [.rng 'Р' 'Р', .rng 'р' 'р']], .seqs [.number, .lit [' '], .cls false [.rng 'Б' 'Б', .rng 'б' 'б'], .cls false [.rng 'О' 'О', .rng 'о' 'о', .rng 'ᲂ' 'ᲂ'], .cls false [.rng 'Н' 'Н', .rng 'н' 'н'], .cls false [.rng 'Ы' 'Ы', .rng 'ы' 'ы'], .lit [' '], .cls false [.rng 'Р' 'Р', .rng 'р' 'р'], .cls false [.rng 'А' 'А', .rng 'а' 'а'], .cls false [.rng 'З' 'З', .rng 'з' 'з'], .cls false [.rng 'М' 'М', .rng 'м' 'м'], .cls false [.rng 'Ӕ' 'Ӕ', .rng 'ӕ' 'ӕ']], .seqs [.number, .lit [' '], .cls false [.rng 'Б' 'Б', .rng 'б' 'б'], .cls false [.rng 'О' 'О', .rng 'о' 'о', .rng 'ᲂ' 'ᲂ'], .cls false [.rng 'Н' 'Н', .rng 'н' 'н'], .cls false [.rng 'Ы' 'Ы', .rng 'ы' 'ы'], .lit [' '], .cls false [.rng 'Ф' 'Ф', .rng 'ф' 'ф'], .cls false [.rng 'Ӕ' 'Ӕ', .rng 'ӕ' 'ӕ'], .cls false [.rng 'С' 'С', .rng 'с' 'с', .rng 'ᲃ' 'ᲃ'], .cls false [.rng 'Т' 'Т', .rng 'т' 'т', .rng 'ᲄ' 'ᲄ', .rng 'ᲅ' 'ᲅ'], .cls false [.rng 'Ӕ' 'Ӕ', .rng 'ӕ' 'ӕ']]]), .eos]),
  knownWords :=
   [['ӕ', 'м', 'б', 'и', 'с', 'б', 'о', 'н', 'ы', ' ', 'р', 'а', 'з', 'м', 'ӕ'], ['ӕ', 'м', 'б', 'и', 'с', 'б', 'о', 'н', 'ы', ' ', 'ф', 'ӕ', 'с', 'т', 'ӕ'], ['t', 'h', 'i', 's', ' ', 'm', 'i', 'n', 'u', 't', 'e'], ['l', 'a', 's', 't', ' ', 'm', 'o', 'n', 't', 'h'], ['n', 'e', 'x', 't', ' ', 'm', 'o', 'n', 't', 'h'], ['t', 'h', 'i', 's', ' ', 'm', 'o', 'n', 't', 'h'], ['l', 'a', 's', 't', ' ', 'w', 'e', 'e', 'k'], ['l', 'a', 's', 't', ' ', 'y', 'e', 'a', 'r'], ['n', 'e', 'x', 't', ' ', 'w', 'e', 'e', 'k'], ['n', 'e', 'x', 't', ' ', 'y', 'e', 'a', 'r'], ['t', 'h', 'i', 's', ' ', 'h', 'o', 'u', 'r'], ['t', 'h', 'i', 's', ' ', 'w', 'e', 'e', 'k'], ['t', 'h', 'i', 's', ' ', 'y', 'e', 'a', 'r'], ['к', 'ъ', 'у', 'ы', 'р', 'и', 'с', 'ӕ', 'р'], ['м', 'а', 'и', 'р', 'ӕ', 'м', 'б', 'о', 'н'], ['х', 'у', 'ы', 'ц', 'а', 'у', 'б', 'о', 'н'], ['м', 'а', 'р', 'т', 'ъ', 'и', 'и', 'ы'], ['с', 'е', 'н', 'т', 'я', 'б', 'р', 'ы'], ['с', 'е', 'н', 'т', 'я', 'б', 'р', 'ь'], ['ц', 'ы', 'п', 'п', 'ӕ', 'р', 'ӕ', 'м'], ['ӕ', 'р', 'т', 'ы', 'ц', 'ц', 'ӕ', 'г'], ['а', 'в', 'г', 'у', 'с', 'т', 'ы'], ['д', 'е', 'к', 'а', 'б', 'р', 'ы'], ['д', 'е', 'к', 'а', 'б', 'р', 'ь'], ['о', 'к', 'т', 'я', 'б', 'р', 'ы'], ['о', 'к', 'т', 'я', 'б', 'р', 'ь'], ['ф', 'е', 'в', 'р', 'а', 'л', 'ы'], ['ф', 'е', 'в', 'р', 'а', 'л', 'ь'], ['а', 'в', 'г', 'у', 'с', 'т'], ['а', 'п', 'р', 'е', 'л', 'ы'], ['а', 'п', 'р', 'е', 'л', 'ь'], ['д', 'ы', 'ц', 'ц', 'ӕ', 'г'], ['к', 'ъ', 'у', 'ы', 'р', 'и'], ['м', 'а', 'р', 'т', 'ъ', 'и'], ['н', 'о', 'я', 'б', 'р', 'ы'], ['н', 'о', 'я', 'б', 'р', 'ь'], ['с', 'е', 'к', 'у', 'н', 'д'], ['я', 'н', 'в', 'а', 'р', 'ы'], ['я', 'н', 'в', 'а', 'р', 'ь'], ['м', 'и', 'н', 'у', 'т'], ['с', 'а', 'б', 'а', 'т'], ['с', 'а', 'х', 'а', 'т'], ['а', 'б', 'о', 'н'], ['з', 'н', 'о', 'н'], ['и', 'ю', 'л', 'ы'], ['и', 'ю', 'л', 'ь'], ['и', 'ю', 'н', 'ы'], ['и', 'ю', 'н', 'ь'], ['м', 'а', 'и', 'ы'], ['м', 'а', 'р', 'т'], ['н', 'о', 'я', 'б'], ['с', 'е', 'н', 'т'], ['ф', 'е', 'в', 'р'], ['g', 'm', 't'], ['n', 'o', 'w'], ['u', 't', 'c'], ['а', 'в', 'г'], ['а', 'п', 'р'], ['б', 'о', 'н'], ['д', 'е', 'к'], ['д', 'ц', 'г'], ['к', 'р', 'с'], ['м', 'а', 'и'], ['м', 'а', 'р'], ['м', 'р', 'б'], ['м', 'ӕ', 'и'], ['н', 'о', 'я'], ['о', 'к', 'т'], ['с', 'б', 'т'], ['с', 'е', 'н'], ['с', 'о', 'м'], ['ф', 'е', 'в'], ['х', 'ц', 'б'], ['ц', 'п', 'р'], ['я', 'н', 'в'], ['ӕ', 'р', 'т'], ['a', 'm'], ['p', 'm'], ['а', 'з'], [' '], ['\''], ['+'], [','], ['-'], ['.'], ['/'], [':'], [';'], ['@'], ['['], [']'], ['z'], ['|']] }

/-- internal/data/os.go: `os_RU_Locale`. -/
def os_RULang : LangData := os_RUDict

/-- internal/data/pa-arab.go: `pa_Arab_Locale`. -/
def pa_ArabLang : LangData := { pa_ArabDict with
  knownWords :=
   [['t', 'h', 'i', 's', ' ', 'm', 'i', 'n', 'u', 't', 'e'], ['l', 'a', 's', 't', ' ', 'm', 'o', 'n', 't', 'h'], ['n', 'e', 'x', 't', ' ', 'm', 'o', 'n', 't', 'h'], ['t', 'h', 'i', 's', ' ', 'm', 'o', 'n', 't', 'h'], ['l', 'a', 's', 't', ' ', 'w', 'e', 'e', 'k'], ['l', 'a', 's', 't', ' ', 'y', 'e', 'a', 'r'], ['n', 'e', 'x', 't', ' ', 'w', 'e', 'e', 'k'], ['n', 'e', 'x', 't', ' ', 'y', 'e', 'a', 'r'], ['t', 'h', 'i', 's', ' ', 'h', 'o', 'u', 'r'], ['t', 'h', 'i', 's', ' ', 'w', 'e', 'e', 'k'], ['t', 'h', 'i', 's', ' ', 'y', 'e', 'a', 'r'], ['y', 'e', 's', 't', 'e', 'r', 'd', 'a', 'y'], ['t', 'o', 'm', 'o', 'r', 'r', 'o', 'w'], ['s', 'e', 'c', 'o', 'n', 'd'], ['ا', 'ک', 'ت', 'و', 'ب', 'ر'], ['ج', 'م', 'ع', 'ر', 'ا', 'ت'], ['ج', 'و', 'ل', 'ا', 'ي', 'ی'], ['t', 'o', 'd', 'a', 'y'], ['ا', 'ت', 'و', 'ا', 'ر'], ['ا', 'پ', 'ر', 'ی', 'ل'], ['ج', 'ن', 'و', 'ر', 'ی'], ['د', 'س', 'م', 'ب', 'ر'], ['س', 'ت', 'م', 'ب', 'ر'], ['ف', 'ر', 'و', 'ر', 'ی'], ['م', 'ہ', 'ي', 'ن', 'ا'], ['ن', 'و', 'م', 'ب', 'ر'], ['گ', 'ھ', 'ن', 'ٹ', 'ا'], ['ا', 'گ', 'س', 'ت'], ['ج', 'م', 'ع', 'ہ'], ['م', 'ا', 'ر', 'چ'], ['م', 'ن', 'گ', 'ل'], ['و', 'ر', 'ھ', 'ا'], ['ہ', 'ف', 'ت', 'ہ'], ['g', 'm', 't'], ['n', 'o', 'w'], ['u', 't', 'c'], ['ب', 'د', 'ھ'], ['ج', 'و', 'ن'], ['د', 'ي', 'ن'], ['م', 'ن', 'ٹ'], ['پ', 'ی', 'ر'], ['a', 'm'], ['p', 'm'], ['م', 'ي'], [' '], ['\''], ['+'], [','], ['-'], ['.'], ['/'], [':'], [';'], ['@'], ['['], [']'], ['z'], ['|']] }

/-- internal/data/pa-guru.go: `pa_Guru_Locale`. -/
def pa_GuruLang : LangData := { pa_GuruDict with
  relativeRegexes :=
   [(.seqs [.grp 1 (.number), .lit [' ', 'ਮ', 'ਹ', 'ੀ', 'ਨ', 'ਾ', ' ', 'ਪ', 'ਹ', 'ਿ', 'ਲ', 'ਾ']], [.ref 1, .lit [' ', 'm', 'o', 'n', 't', 'h', ' ', 'a', 'g', 'o']]),
    (.seqs [.grp 1 (.number), .lit [' ', 'ਮ', 'ਹ', 'ੀ', 'ਨ', ' ', 'ਪ', 'ਹ', 'ਿ', 'ਲ', 'ਾ']], [.ref 1, .lit [' ', 'm', 'o', 'n', 't', 'h', ' ', 'a', 'g', 'o']]),
    (.seqs [.grp 1 (.number), .lit [' ', 'ਮ', 'ਹ', 'ੀ', 'ਨ', 'ਿ', 'ਆ', ' ', 'ਵ', 'ਿ', 'ਚ']], [.lit ['i', 'n', ' '], .ref 1, .lit [' ', 'm', 'o', 'n', 't', 'h']]),
    (.seqs [.grp 1 (.number), .lit [' ', 'ਸ', 'ਕ', 'ਿ', 'ਟ', ' ', 'ਪ', 'ਹ', 'ਿ', 'ਲ', 'ਾ']], [.ref 1, .lit [' ', 's', 'e', 'c', 'o', 'n', 'd', ' ', 'a', 'g', 'o']]),
    (.seqs [.grp 1 (.number), .lit [' ', 'ਹ', 'ਫ', 'ਤ', 'ਾ', ' ', 'ਪ', 'ਹ', 'ਿ', 'ਲ', 'ਾ']], [.ref 1, .lit [' ', 'w', 'e', 'e', 'k', ' ', 'a', 'g', 'o']]),
    (.seqs [.grp 1 (.number), .lit [' ', 'ਘ', 'ਟ', 'ਾ', ' ', 'ਪ', 'ਹ', 'ਿ', 'ਲ', 'ਾ']], [.ref 1, .lit [' ', 'h', 'o', 'u', 'r', ' ', 'a', 'g', 'o']]),
    (.seqs [.grp 1 (.number), .lit [' ', 'ਦ', 'ਿ', 'ਨ', ' ', 'ਪ', 'ਹ', 'ਿ', 'ਲ', 'ਾ']], [.ref 1, .lit [' ', 'd', 'a', 'y', ' ', 'a', 'g', 'o']]),
    (.seqs [.grp 1 (.number), .lit [' ', 'ਮ', 'ਿ', 'ਟ', ' ', 'ਪ', 'ਹ', 'ਿ', 'ਲ', 'ਾ']], [.ref 1, .lit [' ', 'm', 'i', 'n', 'u', 't', 'e', ' ', 'a', 'g', 'o']]),
    (.seqs [.grp 1 (.number), .lit [' ', 'ਸ', 'ਕ', 'ਿ', 'ਟ', 'ਾ', ' ', 'ਵ', 'ਿ', 'ਚ']], [.lit ['i', 'n', ' '], .ref 1, .lit [' ', 's', 'e', 'c', 'o', 'n', 'd']]),
    (.seqs [.grp 1 (.number), .lit [' ', 'ਸ', 'ਾ', 'ਲ', ' ', 'ਪ', 'ਹ', 'ਿ', 'ਲ', 'ਾ']], [.ref 1, .lit [' ', 'y', 'e', 'a', 'r', ' ', 'a', 'g', 'o']]),
    (.seqs [.grp 1 (.number), .lit [' ', 'ਹ', 'ਫ', 'ਤ', ' ', 'ਪ', 'ਹ', 'ਿ', 'ਲ', 'ਾ']], [.ref 1, .lit [' ', 'w', 'e', 'e', 'k', ' ', 'a', 'g', 'o']]),
    (.seqs [.grp 1 (.number), .lit [' ', 'ਹ', 'ਫ', 'ਤ', 'ਿ', 'ਆ', ' ', 'ਵ', 'ਿ', 'ਚ']], [.lit ['i', 'n', ' '], .ref 1, .lit [' ', 'w', 'e', 'e', 'k']]),
    (.seqs [.grp 1 (.number), .lit [' ', 'ਘ', 'ਟ', ' ', 'ਪ', 'ਹ', 'ਿ', 'ਲ', 'ਾ']], [.ref 1, .lit [' ', 'h', 'o', 'u', 'r', ' ', 'a', 'g', 'o']]),
    (.seqs [.grp 1 (.number), .lit [' ', 'ਘ', 'ਟ', 'ਿ', 'ਆ', ' ', 'ਵ', 'ਿ', 'ਚ']], [.lit ['i', 'n', ' '], .ref 1, .lit [' ', 'h', 'o', 'u', 'r']]),
    (.seqs [.grp 1 (.number), .lit [' ', 'ਦ', 'ਿ', 'ਨ', 'ਾ', ' ', 'ਵ', 'ਿ', 'ਚ']], [.lit ['i', 'n', ' '], .ref 1, .lit [' ', 'd', 'a', 'y']]),
    (.seqs [.grp 1 (.number), .lit [' ', 'ਮ', 'ਹ', 'ੀ', 'ਨ', ' ', 'ਵ', 'ਿ', 'ਚ']], [.lit ['i', 'n', ' '], .ref 1, .lit [' ', 'm', 'o', 'n', 't', 'h']]),
    (.seqs [.grp 1 (.number), .lit [' ', 'ਮ', 'ਿ', 'ਟ', 'ਾ', ' ', 'ਵ', 'ਿ', 'ਚ']], [.lit ['i', 'n', ' '], .ref 1, .lit [' ', 'm', 'i', 'n', 'u', 't', 'e']]),
    (.seqs [.grp 1 (.number), .lit [' ', 'ਸ', 'ਕ', 'ਿ', 'ਟ', ' ', 'ਵ', 'ਿ', 'ਚ']], [.lit ['i', 'n', ' '], .ref 1, .lit [' ', 's', 'e', 'c', 'o', 'n', 'd']]),
    (.seqs [.grp 1 (.number), .lit [' ', 'ਸ', 'ਾ', 'ਲ', 'ਾ', ' ', 'ਵ', 'ਿ', 'ਚ']], [.lit ['i', 'n', ' '], .ref 1, .lit [' ', 'y', 'e', 'a', 'r']]),
    (.seqs [.grp 1 (.number), .lit [' ', 'ਦ', 'ਿ', 'ਨ', ' ', 'ਵ', 'ਿ', 'ਚ']], [.lit ['i', 'n', ' '], .ref 1, .lit [' ', 'd', 'a', 'y']]),
    (.seqs [.grp 1 (.number), .lit [' ', 'ਮ', 'ਿ', 'ਟ', ' ', 'ਵ', 'ਿ', 'ਚ']], [.lit ['i', 'n', ' '], .ref 1, .lit [' ', 'm', 'i', 'n', 'u', 't', 'e']]),
    (.seqs [.grp 1 (.number), .lit [' ', 'ਸ', 'ਾ', 'ਲ', ' ', 'ਵ', 'ਿ', 'ਚ']], [.lit ['i', 'n', ' '], .ref 1, .lit [' ', 'y', 'e', 'a', 'r']]),
    (.seqs [.grp 1 (.number), .lit [' ', 'ਹ', 'ਫ', 'ਤ', ' ', 'ਵ', 'ਿ', 'ਚ']], [.lit ['i', 'n', ' '], .ref 1, .lit [' ', 'w', 'e', 'e', 'k']]),
    (.seqs [.grp 1 (.number), .lit [' ', 'ਘ', 'ਟ', ' ', 'ਵ', 'ਿ', 'ਚ']], [.lit ['i', 'n', ' '], .ref 1, .lit [' ', 'h', 'o', 'u', 'r']])],
  rxCombined := some (.seqs [.grp 1 (.alts [.bos, .cls true [.letter, .mark, .digit], .lit ['_']]), .grp 2 (.alts [.seqs [.number, .lit [' ', 'ਮ', 'ਹ', 'ੀ', 'ਨ', 'ਾ', ' ', 'ਪ', 'ਹ', 'ਿ', 'ਲ', 'ਾ']], .seqs [.number, .lit [' ', 'ਮ', 'ਹ', 'ੀ', 'ਨ', ' ', 'ਪ', 'ਹ', 'ਿ', 'ਲ', 'ਾ']], .seqs [.number, .lit [' ', 'ਮ', 'ਹ', 'ੀ', 'ਨ', 'ਿ', 'ਆ', ' ', 'ਵ', 'ਿ', 'ਚ']], .seqs [.number, .lit [' ', 'ਸ', 'ਕ', 'ਿ', 'ਟ', ' ', 'ਪ', 'ਹ', 'ਿ', 'ਲ', 'ਾ']], .seqs [.number, .lit [' ', 'ਹ', 'ਫ', 'ਤ', 'ਾ', ' ', 'ਪ', 'ਹ', 'ਿ', 'ਲ', 'ਾ']], .seqs [.number, .lit [' ', 'ਘ', 'ਟ', 'ਾ', ' ', 'ਪ', 'ਹ', 'ਿ', 'ਲ', 'ਾ']], .seqs [.number, .lit [' ', 'ਦ', 'ਿ', 'ਨ', ' ', 'ਪ', 'ਹ', 'ਿ', 'ਲ', 'ਾ']], .seqs [.number, .lit [' ', 'ਮ', 'ਿ', 'ਟ', ' ', 'ਪ', 'ਹ', 'ਿ', 'ਲ', 'ਾ']], .seqs [.number, .lit [' ', 'ਸ', 'ਕ', 'ਿ', 'ਟ', 'ਾ', ' ', 'ਵ', 'ਿ', 'ਚ']], .seqs [.number, .lit [' ', 'ਸ', 'ਾ', 'ਲ', ' ', 'ਪ', 'ਹ', 'ਿ', 'ਲ', 'ਾ']], .seqs [.number, .lit [' ', 'ਹ', 'ਫ', 'ਤ', ' ', 'ਪ', 'ਹ', 'ਿ', 'ਲ', 'ਾ']], .seqs [.number, .lit [' ', 'ਹ', 'ਫ', 'ਤ', 'ਿ', 'ਆ', ' ', 'ਵ', 'ਿ', 'ਚ']], .seqs [.number, .lit [' ', 'ਘ', 'ਟ', ' ', 'ਪ', 'ਹ', 'ਿ', 'ਲ', 'ਾ']], .seqs [.number, .lit [' ', 'ਘ', 'ਟ', 'ਿ', 'ਆ', ' ', 'ਵ', 'ਿ', 'ਚ']], .seqs [.number, .lit [' ', 'ਦ', 'ਿ', 'ਨ', 'ਾ', ' ', 'ਵ', 'ਿ', 'ਚ']], .seqs [.number, .lit [' ', 'ਮ', 'ਹ', 'ੀ', 'ਨ', ' ', 'ਵ', 'ਿ', 'ਚ']], .seqs [.number, .lit [' ', 'ਮ', 'ਿ', 'ਟ', 'ਾ', ' ', 'ਵ', 'ਿ', 'ਚ']], .seqs [.number, .lit [' ', 'ਸ', 'ਕ', 'ਿ', 'ਟ', ' ', 'ਵ', 'ਿ', 'ਚ']], .seqs [.number, .lit [' ', 'ਸ', 'ਾ', 'ਲ', 'ਾ', ' ', 'ਵ', 'ਿ', 'ਚ']], .seqs [.number, .lit [' ', 'ਦ', 'ਿ', 'ਨ', ' ', 'ਵ', 'ਿ', 'ਚ']], .seqs [.number, .lit [' ', 'ਮ', 'ਿ', 'ਟ', ' ', 'ਵ', 'ਿ', 'ਚ']], .seqs [.number, .lit [' ', 'ਸ', 'ਾ', 'ਲ', ' ', 'ਵ', 'ਿ', 'ਚ']], .seqs [.number, .lit [' ', 'ਹ', 'ਫ', 'ਤ', ' ', 'ਵ', 'ਿ', 'ਚ']], .seqs [.number, .lit [' ', 'ਘ', 'ਟ', ' ', 'ਵ', 'ਿ', 'ਚ']]]), .grp 3 (.alts [.eos, .cls true [.letter, .mark, .digit], .lit ['_']])], 3),
  rxExact := some (.seqs [.bos, .grp 1 (.alts [.seqs [.number, .lit [' ', 'ਮ', 'ਹ', 'ੀ', 'ਨ', 'ਾ', ' ', 'ਪ', 'ਹ', 'ਿ', 'ਲ', 'ਾ']], .seqs [.number, .lit [' ', 'ਮ', 'ਹ', 'ੀ', 'ਨ', ' ', 'ਪ', 'ਹ', 'ਿ', 'ਲ', 'ਾ']], .seqs [.number, .lit [' ', 'ਮ', 'ਹ', 'ੀ', 'ਨ', 'ਿ', 'ਆ', ' ', 'ਵ', 'ਿ', 'ਚ']], .seqs [.number, .lit [' ', 'ਸ', 'ਕ', 'ਿ', 'ਟ', ' ', 'ਪ', 'ਹ', 'ਿ', 'ਲ', 'ਾ']], .seqs [.number, .lit [' ', 'ਹ', 'ਫ', 'ਤ', 'ਾ', ' ', 'ਪ', 'ਹ', 'ਿ', 'ਲ', 'ਾ']], .seqs [.number, .lit [' ', 'ਘ', 'ਟ', 'ਾ', ' ', 'ਪ', 'ਹ', 'ਿ', 'ਲ', 'ਾ']], .seqs [.number, .lit [' ', 'ਦ', 'ਿ', 'ਨ', ' ', 'ਪ', 'ਹ', 'ਿ', 'ਲ', 'ਾ']], .seqs [.number, .lit [' ', 'ਮ', 'ਿ', 'ਟ', ' ', 'ਪ', 'ਹ', 'ਿ', 'ਲ', 'ਾ']], .seqs [.number, .lit [' ', 'ਸ', 'ਕ', 'ਿ', 'ਟ', 'ਾ', ' ', 'ਵ', 'ਿ', 'ਚ']], .seqs [.number, .lit [' ', 'ਸ', 'ਾ', 'ਲ', ' ', 'ਪ', 'ਹ', 'ਿ', 'ਲ', 'ਾ']], .seqs [.number, .lit [' ', 'ਹ', 'ਫ', 'ਤ', ' ', 'ਪ', 'ਹ', 'ਿ', 'ਲ', 'ਾ']], .seqs [.number, .lit [' ', 'ਹ', 'ਫ', 'ਤ', 'ਿ', 'ਆ', ' ', 'ਵ', 'ਿ', 'ਚ']], .seqs [.number, .lit [' ', 'ਘ', 'ਟ', ' ', 'ਪ', 'ਹ', 'ਿ', 'ਲ', 'ਾ']], .seqs [.number, .lit [' ', 'ਘ', 'ਟ', 'ਿ', 'ਆ', ' ', 'ਵ', 'ਿ', 'ਚ']], .seqs [.number, .lit [' ', 'ਦ', 'ਿ', 'ਨ', 'ਾ', ' ', 'ਵ', 'ਿ', 'ਚ']], .seqs [.number, .lit [' ', 'ਮ', 'ਹ', 'ੀ', 'ਨ', ' ', 'ਵ', 'ਿ', 'ਚ']], .seqs [.number, .lit [' ', 'ਮ', 'ਿ', 'ਟ', 'ਾ', ' ', 'ਵ', 'ਿ', 'ਚ']], .seqs [.number, .lit [' ', 'ਸ', 'ਕ', 'ਿ', 'ਟ', ' ', 'ਵ', 'ਿ', 'ਚ']], .seqs [.number, .lit [' ', 'ਸ', 'ਾ', 'ਲ', 'ਾ', ' ', 'ਵ', 'ਿ', 'ਚ']], .seqs [.number, .lit [' ', 'ਦ', 'ਿ', 'ਨ', ' ', 'ਵ', 'ਿ', 'ਚ']], .seqs [.number, .lit [' ', 'ਮ', 'ਿ', 'ਟ', ' ', 'ਵ', 'ਿ', 'ਚ']], .seqs [.number, .lit [' ', 'ਸ', 'ਾ', 'ਲ', ' ', 'ਵ', 'ਿ', 'ਚ']], .seqs [.number, .lit [' ', 'ਹ', 'ਫ', 'ਤ', ' ', 'ਵ', 'ਿ', 'ਚ']], .seqs [.number, .lit [' ', 'ਘ', 'ਟ', ' ', 'ਵ', 'ਿ', 'ਚ']]]), .eos]),
  knownWords :=
   [['ਪ', 'ਿ', 'ਛ', 'ਲ', 'ਾ', ' ', 'ਮ', 'ਹ', 'ੀ', 'ਨ', 'ਾ'], ['ਅ', 'ਗ', 'ਲ', 'ਾ', ' ', 'ਮ', 'ਹ', 'ੀ', 'ਨ', 'ਾ'], ['ਪ', 'ਿ', 'ਛ', 'ਲ', 'ਾ', ' ', 'ਹ', 'ਫ', 'ਤ', 'ਾ'], ['ਅ', 'ਗ', 'ਲ', 'ਾ', ' ', 'ਹ', 'ਫ', 'ਤ', 'ਾ'], ['ਪ', 'ਿ', 'ਛ', 'ਲ', 'ਾ', ' ', 'ਸ', 'ਾ', 'ਲ'], ['ਬ', 'ੀ', 'ਤ', 'ਿ', 'ਆ', ' ', 'ਕ', 'ਲ', 'ਹ'], ['ਅ', 'ਗ', 'ਲ', 'ਾ', ' ', 'ਸ', 'ਾ', 'ਲ'], ['ਇ', 'ਹ', ' ', 'ਮ', 'ਹ', 'ੀ', 'ਨ', 'ਾ'], ['ਸ', 'ਨ', 'ਿ', 'ਚ', 'ਰ', 'ਵ', 'ਾ', 'ਰ'], ['ਇ', 'ਹ', ' ', 'ਹ', 'ਫ', 'ਤ', 'ਾ'], ['ਇ', 'ਸ', ' ', 'ਮ', 'ਿ', 'ਟ'], ['ਇ', 'ਹ', ' ', 'ਸ', 'ਾ', 'ਲ'], ['ਮ', 'ਗ', 'ਲ', 'ਵ', 'ਾ', 'ਰ'], ['ਵ', 'ੀ', 'ਰ', 'ਵ', 'ਾ', 'ਰ'], ['ਸ', 'ਕ', 'ਰ', 'ਵ', 'ਾ', 'ਰ'], ['ਅ', 'ਕ', 'ਤ', 'ਬ', 'ਰ'], ['ਇ', 'ਸ', ' ', 'ਘ', 'ਟ'], ['ਐ', 'ਤ', 'ਵ', 'ਾ', 'ਰ'], ['ਜ', 'ਨ', 'ਵ', 'ਰ', 'ੀ'], ['ਫ', 'ਰ', 'ਵ', 'ਰ', 'ੀ'], ['ਬ', 'ਧ', 'ਵ', 'ਾ', 'ਰ'], ['ਮ', 'ਹ', 'ੀ', 'ਨ', 'ਾ'], ['ਸ', 'ਨ', 'ਿ', 'ਚ', 'ਰ'], ['ਸ', 'ਮ', 'ਵ', 'ਾ', 'ਰ'], ['ਅ', 'ਗ', 'ਸ', 'ਤ'], ['ਅ', 'ਪ', 'ਰ', 'ਲ'], ['ਜ', 'ਲ', 'ਾ', 'ਈ'], ['ਦ', 'ਸ', 'ਬ', 'ਰ'], ['ਨ', 'ਵ', 'ਬ', 'ਰ'], ['ਮ', 'ਾ', 'ਰ', 'ਚ'], ['ਸ', 'ਕ', 'ਿ', 'ਟ'], ['ਸ', 'ਤ', 'ਬ', 'ਰ'], ['ਹ', 'ਫ', 'ਤ', 'ਾ'], ['g', 'm', 't'], ['u', 't', 'c'], ['ਅ', 'ਕ', 'ਤ'], ['ਅ', 'ਪ', 'ਰ'], ['ਘ', 'ਟ', 'ਾ'], ['ਜ', 'ਲ', 'ਾ'], ['ਦ', 'ਿ', 'ਨ'], ['ਬ', 'ਾ', 'ਦ'], ['ਭ', 'ਲ', 'ਕ'], ['ਮ', 'ਗ', 'ਲ'], ['ਮ', 'ਿ', 'ਟ'], ['ਵ', 'ੀ', 'ਰ'], ['ਸ', 'ਕ', 'ਰ'], ['ਸ', 'ਾ', 'ਲ'], ['a', 'm'], ['p', 'm'], ['ਅ', 'ਗ'], ['ਅ', 'ਜ'], ['ਐ', 'ਤ'], ['ਜ', 'ਨ'], ['ਦ', 'ਸ'], ['ਨ', 'ਵ'], ['ਪ', 'ਦ'], ['ਫ', 'ਰ'], ['ਬ', 'ਧ'], ['ਮ', 'ਈ'], ['ਸ', 'ਤ'], ['ਸ', 'ਮ'], ['ਹ', 'ਣ'], [' '], ['\''], ['+'], [','], ['-'], ['.'], ['/'], [':'], [';'], ['@'], ['['], [']'], ['z'], ['|'], ['ਘ']] }

/-- internal/data/pa.go: `pa_Locale`. -/
def paLang : LangData := { paDict with
  relativeRegexes :=
   [(.seqs [.grp 1 (.number), .lit [' ', 'ਮ', 'ਹ', 'ੀ', 'ਨ', 'ਾ', ' ', 'ਪ', 'ਹ', 'ਿ', 'ਲ', 'ਾ']], [.ref 1, .lit [' ', 'm', 'o', 'n', 't', 'h', ' ', 'a', 'g', 'o']]),
    (.seqs [.grp 1 (.number), .lit [' ', 'ਮ', 'ਹ', 'ੀ', 'ਨ', ' ', 'ਪ', 'ਹ', 'ਿ', 'ਲ', 'ਾ']], [.ref 1, .lit [' ', 'm', 'o', 'n', 't', 'h', ' ', 'a', 'g', 'o']]),
    (.seqs [.grp 1 (.number), .lit [' ', 'ਮ', 'ਹ', 'ੀ', 'ਨ', 'ਿ', 'ਆ', ' ', 'ਵ', 'ਿ', 'ਚ']], [.lit ['i', 'n', ' '], .ref 1, .lit [' ', 'm', 'o', 'n', 't', 'h']]),
    (.seqs [.grp 1 (.number), .lit [' ', 'ਸ', 'ਕ', 'ਿ', 'ਟ', ' ', 'ਪ', 'ਹ', 'ਿ', 'ਲ', 'ਾ']], [.ref 1, .lit [' ', 's', 'e', 'c', 'o', 'n', 'd', ' ', 'a', 'g', 'o']]),
    (.seqs [.grp 1 (.number), .lit [' ', 'ਹ', 'ਫ', 'ਤ', 'ਾ', ' ', 'ਪ', 'ਹ', 'ਿ', 'ਲ', 'ਾ']], [.ref 1, .lit [' ', 'w', 'e', 'e', 'k', ' ', 'a', 'g', 'o']]),
    (.seqs [.grp 1 (.number), .lit [' ', 'ਘ', 'ਟ', 'ਾ', ' ', 'ਪ', 'ਹ', 'ਿ', 'ਲ', 'ਾ']], [.ref 1, .lit [' ', 'h', 'o', 'u', 'r', ' ', 'a', 'g', 'o']]),
    (.seqs [.grp 1 (.number), .lit [' ', 'ਦ', 'ਿ', 'ਨ', ' ', 'ਪ', 'ਹ', 'ਿ', 'ਲ', 'ਾ']], [.ref 1, .lit [' ', 'd', 'a', 'y', ' ', 'a', 'g', 'o']]),
    (.seqs [.grp 1 (.number), .lit [' ', 'ਮ', 'ਿ', 'ਟ', ' ', 'ਪ', 'ਹ', 'ਿ', 'ਲ', 'ਾ']], [.ref 1, .lit [' ', 'm', 'i', 'n', 'u', 't', 'e', ' ', 'a', 'g', 'o']]),
    (.seqs [.grp 1 (.number), .lit [' ', 'ਸ', 'ਕ', 'ਿ', 'ਟ', 'ਾ', ' ', 'ਵ', 'ਿ', 'ਚ']], [.lit ['i', 'n', ' '], .ref 1, .lit [' ', 's', 'e', 'c', 'o', 'n', 'd']]),
    (.seqs [.grp 1 (.number), .lit [' ', 'ਸ', 'ਾ', 'ਲ', ' ', 'ਪ', 'ਹ', 'ਿ', 'ਲ', 'ਾ']], [.ref 1, .lit [' ', 'y', 'e', 'a', 'r', ' ', 'a', 'g', 'o']]),
    (.seqs [.grp 1 (.number), .lit [' ', 'ਹ', 'ਫ', 'ਤ', ' ', 'ਪ', 'ਹ', 'ਿ', 'ਲ', 'ਾ']], [.ref 1, .lit [' ', 'w', 'e', 'e', 'k', ' ', 'a', 'g', 'o']]),
    (.seqs [.grp 1 (.number), .lit [' ', 'ਹ', 'ਫ', 'ਤ', 'ਿ', 'ਆ', ' ', 'ਵ', 'ਿ', 'ਚ']], [.lit ['i', 'n', ' '], .ref 1, .lit [' ', 'w', 'e', 'e', 'k']]),
    (.seqs [.grp 1 (.number), .lit [' ', 'ਘ', 'ਟ', ' ', 'ਪ', 'ਹ', 'ਿ', 'ਲ', 'ਾ']], [.ref 1, .lit [' ', 'h', 'o', 'u', 'r', ' ', 'a', 'g', 'o']]),
    (.seqs [.grp 1 (.number), .lit [' ', 'ਘ', 'ਟ', 'ਿ', 'ਆ', ' ', 'ਵ', 'ਿ', 'ਚ']], [.lit ['i', 'n', ' '], .ref 1, .lit [' ', 'h', 'o', 'u', 'r']]),
    (.seqs [.grp 1 (.number), .lit [' ', 'ਦ', 'ਿ', 'ਨ', 'ਾ', ' ', 'ਵ', 'ਿ', 'ਚ']], [.lit ['i', 'n', ' '], .ref 1, .lit [' ', 'd', 'a', 'y']]),
    (.seqs [.grp 1 (.number), .lit [' ', 'ਮ', 'ਹ', 'ੀ', 'ਨ', ' ', 'ਵ', 'ਿ', 'ਚ']], [.lit ['i', 'n', ' '], .ref 1, .lit [' ', 'm', 'o', 'n', 't', 'h']]),
    (.seqs [.grp 1 (.number), .lit [' ', 'ਮ', 'ਿ', 'ਟ', 'ਾ', ' ', 'ਵ', 'ਿ', 'ਚ']], [.lit ['i', 'n', ' '], .ref 1, .lit [' ', 'm', 'i', 'n', 'u', 't', 'e']]),
    (.seqs [.grp 1 (.number), .lit [' ', 'ਸ', 'ਕ', 'ਿ', 'ਟ', ' ', 'ਵ', 'ਿ', 'ਚ']], [.lit ['i', 'n', ' '], .ref 1, .lit [' ', 's', 'e', 'c', 'o', 'n', 'd']]),
    (.seqs [.grp 1 (.number), .lit [' ', 'ਸ', 'ਾ', 'ਲ', 'ਾ', ' ', 'ਵ', 'ਿ', 'ਚ']], [.lit ['i', 'n', ' '], .ref 1, .lit [' ', 'y', 'e', 'a', 'r']]),
    (.seqs [.grp 1 (.number), .lit [' ', 'ਦ', 'ਿ', 'ਨ', ' ', 'ਵ', 'ਿ', 'ਚ']], [.lit ['i', 'n', ' '], .ref 1, .lit [' ', 'd', 'a', 'y']]),
    (.seqs [.grp 1 (.number), .lit [' ', 'ਮ', 'ਿ', 'ਟ', ' ', 'ਵ', 'ਿ', 'ਚ']], [.lit ['i', 'n', ' '], .ref 1, .lit [' ', 'm', 'i', 'n', 'u', 't', 'e']]),
    (.seqs [.grp 1 (.number), .lit [' ', 'ਸ', 'ਾ', 'ਲ', ' ', 'ਵ', 'ਿ', 'ਚ']], [.lit ['i', 'n', ' '], .ref 1, .lit [' ', 'y', 'e', 'a', 'r']]),
    (.seqs [.grp 1 (.number), .lit [' ', 'ਹ', 'ਫ', 'ਤ', ' ', 'ਵ', 'ਿ', 'ਚ']], [.lit ['i', 'n', ' '], .ref 1, .lit [' ', 'w', 'e', 'e', 'k']]),
    (.seqs [.grp 1 (.number), .lit [' ', 'ਘ', 'ਟ', ' ', 'ਵ', 'ਿ', 'ਚ']], [.lit ['i', 'n', ' '], .ref 1, .lit [' ', 'h', 'o', 'u', 'r']])],
  rxCombined := some (.seqs [.grp 1 (.alts [.bos, .cls true [.letter, .mark, .digit], .lit ['_']]), .grp 2 (.alts [.seqs [.number, .lit [' ', 'ਮ', 'ਹ', 'ੀ', 'ਨ', 'ਾ', ' ', 'ਪ', 'ਹ', 'ਿ', 'ਲ', 'ਾ']], .seqs [.number, .lit [' ', 'ਮ', 'ਹ', 'ੀ', 'ਨ', ' ', 'ਪ', 'ਹ', 'ਿ', 'ਲ', 'ਾ']], .seqs [.number, .lit [' ', 'ਮ', 'ਹ', 'ੀ', 'ਨ', 'ਿ', 'ਆ', ' ', 'ਵ', 'ਿ', 'ਚ']], .seqs [.number, .lit [' ', 'ਸ', 'ਕ', 'ਿ', 'ਟ', ' ', 'ਪ', 'ਹ', 'ਿ', 'ਲ', 'ਾ']], .seqs [.number, .lit [' ', 'ਹ', 'ਫ', 'ਤ', 'ਾ', ' ', 'ਪ', 'ਹ', 'ਿ', 'ਲ', 'ਾ']], .seqs [.number, .lit [' ', 'ਘ', 'ਟ', 'ਾ', ' ', 'ਪ', 'ਹ', 'ਿ', 'ਲ', 'ਾ']], .seqs [.number, .lit [' ', 'ਦ', 'ਿ', 'ਨ', ' ', 'ਪ', 'ਹ', 'ਿ', 'ਲ', 'ਾ']], .seqs [.number, .lit [' ', 'ਮ', 'ਿ', 'ਟ', ' ', 'ਪ', 'ਹ', 'ਿ', 'ਲ', 'ਾ']], .seqs [.number, .lit [' ', 'ਸ', 'ਕ', 'ਿ', 'ਟ', 'ਾ', ' ', 'ਵ', 'ਿ', 'ਚ']], .seqs [.number, .lit [' ', 'ਸ', 'ਾ', 'ਲ', ' ', 'ਪ', 'ਹ', 'ਿ', 'ਲ', 'ਾ']], .seqs [.number, .lit [' ', 'ਹ', 'ਫ', 'ਤ', ' ', 'ਪ', 'ਹ', 'ਿ', 'ਲ', 'ਾ']], .seqs [.number, .lit [' ', 'ਹ', 'ਫ', 'ਤ', 'ਿ', 'ਆ', ' ', 'ਵ', 'ਿ', 'ਚ']], .seqs [.number, .lit [' ', 'ਘ', 'ਟ', ' ', 'ਪ', 'ਹ', 'ਿ', 'ਲ', 'ਾ']], .seqs [.number, .lit [' ', 'ਘ', 'ਟ', 'ਿ', 'ਆ', ' ', 'ਵ', 'ਿ', 'ਚ']], .seqs [.number, .lit [' ', 'ਦ', 'ਿ', 'ਨ', 'ਾ', ' ', 'ਵ', 'ਿ', 'ਚ']], .seqs [.number, .lit [' ', 'ਮ', 'ਹ', 'ੀ', 'ਨ', ' ', 'ਵ', 'ਿ', 'ਚ']], .seqs [.number, .lit [' ', 'ਮ', 'ਿ', 'ਟ', 'ਾ', ' ', 'ਵ', 'ਿ', 'ਚ']], .seqs [.number, .lit [' ', 'ਸ', 'ਕ', 'ਿ', 'ਟ', ' ', 'ਵ', 'ਿ', 'ਚ']], .seqs [.number, .lit [' ', 'ਸ', 'ਾ', 'ਲ', 'ਾ', ' ', 'ਵ', 'ਿ', 'ਚ']], .seqs [.number, .lit [' ', 'ਦ', 'ਿ', 'ਨ', ' ', 'ਵ', 'ਿ', 'ਚ']], .seqs [.number, .lit [' ', 'ਮ', 'ਿ', 'ਟ', ' ', 'ਵ', 'ਿ', 'ਚ']], .seqs [.number, .lit [' ', 'ਸ', 'ਾ', 'ਲ', ' ', 'ਵ', 'ਿ', 'ਚ']], .seqs [.number, .lit [' ', 'ਹ', 'ਫ', 'ਤ', ' ', 'ਵ', 'ਿ', 'ਚ']], .seqs [.number, .lit [' ', 'ਘ', 'ਟ', ' ', 'ਵ', 'ਿ', 'ਚ']]]), .grp 3 (.alts [.eos, .cls true [.letter, .mark, .digit], .lit ['_']])], 3),
  rxExact := some (.seqs [.bos, .grp 1 (.alts [.seqs [.number, .lit [' ', 'ਮ', 'ਹ', 'ੀ', 'ਨ', 'ਾ', ' ', 'ਪ', 'ਹ', 'ਿ', 'ਲ', 'ਾ']], .seqs [.number, .lit [' ', 'ਮ', 'ਹ', 'ੀ', 'ਨ', ' ', 'ਪ', 'ਹ', 'ਿ', 'ਲ', 'ਾ']], .seqs [.number, .lit [' ', 'ਮ', 'ਹ', 'ੀ', 'ਨ', 'ਿ', 'ਆ', ' ', 'ਵ', 'ਿ', 'ਚ']], .seqs [.number, .lit [' ', 'ਸ', 'ਕ', 'ਿ', 'ਟ', ' ', 'ਪ', 'ਹ', 'ਿ', 'ਲ', 'ਾ']], .seqs [.number, .lit [' ', 'ਹ', 'ਫ', 'ਤ', 'ਾ', ' ', 'ਪ', 'ਹ', 'ਿ', 'ਲ', 'ਾ']], .seqs [.number, .lit [' ', 'ਘ', 'ਟ', 'ਾ', ' ', 'ਪ', 'ਹ', 'ਿ', 'ਲ', 'ਾ']], .seqs [.number, .lit [' ', 'ਦ', 'ਿ', 'ਨ', ' ', 'ਪ', 'ਹ', 'ਿ', 'ਲ', 'ਾ']], .seqs [.number, .lit [' ', 'ਮ', 'ਿ', 'ਟ', ' ', 'ਪ', 'ਹ', 'ਿ', 'ਲ', 'ਾ']], .seqs [.number, .lit [' ', 'ਸ', 'ਕ', 'ਿ', 'ਟ', 'ਾ', ' ', 'ਵ', 'ਿ', 'ਚ']], .seqs [.number, .lit [' ', 'ਸ', 'ਾ', 'ਲ', ' ', 'ਪ', 'ਹ', 'ਿ', 'ਲ', 'ਾ']], .seqs [.number, .lit [' ', 'ਹ', 'ਫ', 'ਤ', ' ', 'ਪ', 'ਹ', 'ਿ', 'ਲ', 'ਾ']], .seqs [.number, .lit [' ', 'ਹ', 'ਫ', 'ਤ', 'ਿ', 'ਆ', ' ', 'ਵ', 'ਿ', 'ਚ']], .seqs [.number, .lit [' ', 'ਘ', 'ਟ', ' ', 'ਪ', 'ਹ', 'ਿ', 'ਲ', 'ਾ']], .seqs [.number, .lit [' ', 'ਘ', 'ਟ', 'ਿ', 'ਆ', ' ', 'ਵ', 'ਿ', 'ਚ']], .seqs [.number, .lit [' ', 'ਦ', 'ਿ', 'ਨ', 'ਾ', ' ', 'ਵ', 'ਿ', 'ਚ']], .seqs [.number, .lit [' ', 'ਮ', 'ਹ', 'ੀ', 'ਨ', ' ', 'ਵ', 'ਿ', 'ਚ']], .seqs [.number, .lit [' ', 'ਮ', 'ਿ', 'ਟ', 'ਾ', ' ', 'ਵ', 'ਿ', 'ਚ']], .seqs [.number, .lit [' ', 'ਸ', 'ਕ', 'ਿ', 'ਟ', ' ', 'ਵ', 'ਿ', 'ਚ']], .seqs [.number, .lit [' ', 'ਸ', 'ਾ', 'ਲ', 'ਾ', ' ', 'ਵ', 'ਿ', 'ਚ']], .seqs [.number, .lit [' ', 'ਦ', 'ਿ', 'ਨ', ' ', 'ਵ', 'ਿ', 'ਚ']], .seqs [.number, .lit [' ', 'ਮ', 'ਿ', 'ਟ', ' ', 'ਵ', 'ਿ', 'ਚ']], .seqs [.number, .lit [' ', 'ਸ', 'ਾ', 'ਲ', ' ', 'ਵ', 'ਿ', 'ਚ']], .seqs [.number, .lit [' ', 'ਹ', 'ਫ', 'ਤ', ' ', 'ਵ', 'ਿ', 'ਚ']], .seqs [.number, .lit [' ', 'ਘ', 'ਟ', ' ', 'ਵ', 'ਿ', 'ਚ']]]), .eos]),
  knownWords :=
   [['ਪ', 'ਿ', 'ਛ', 'ਲ', 'ਾ', ' ', 'ਮ', 'ਹ', 'ੀ', 'ਨ', 'ਾ'], ['ਅ', 'ਗ', 'ਲ', 'ਾ', ' ', 'ਮ', 'ਹ', 'ੀ', 'ਨ', 'ਾ'], ['ਪ', 'ਿ', 'ਛ', 'ਲ', 'ਾ', ' ', 'ਹ', 'ਫ', 'ਤ', 'ਾ'], ['ਅ', 'ਗ', 'ਲ', 'ਾ', ' ', 'ਹ', 'ਫ', 'ਤ', 'ਾ'], ['ਪ', 'ਿ', 'ਛ', 'ਲ', 'ਾ', ' ', 'ਸ', 'ਾ', 'ਲ'], ['ਬ', 'ੀ', 'ਤ', 'ਿ', 'ਆ', ' ', 'ਕ', 'ਲ', 'ਹ'], ['ਅ', 'ਗ', 'ਲ', 'ਾ', ' ', 'ਸ', 'ਾ', 'ਲ'], ['ਇ', 'ਹ', ' ', 'ਮ', 'ਹ', 'ੀ', 'ਨ', 'ਾ'], ['ਸ', 'ਨ', 'ਿ', 'ਚ', 'ਰ', 'ਵ', 'ਾ', 'ਰ'], ['ਇ', 'ਹ', ' ', 'ਹ', 'ਫ', 'ਤ', 'ਾ'], ['ਇ', 'ਸ', ' ', 'ਮ', 'ਿ', 'ਟ'], ['ਇ', 'ਹ', ' ', 'ਸ', 'ਾ', 'ਲ'], ['ਮ', 'ਗ', 'ਲ', 'ਵ', 'ਾ', 'ਰ'], ['ਵ', 'ੀ', 'ਰ', 'ਵ', 'ਾ', 'ਰ'], ['ਸ', 'ਕ', 'ਰ', 'ਵ', 'ਾ', 'ਰ'], ['ਅ', 'ਕ', 'ਤ', 'ਬ', 'ਰ'], ['ਇ', 'ਸ', ' ', 'ਘ', 'ਟ'], ['ਐ', 'ਤ', 'ਵ', 'ਾ', 'ਰ'], ['ਜ', 'ਨ', 'ਵ', 'ਰ', 'ੀ'], ['ਫ', 'ਰ', 'ਵ', 'ਰ', 'ੀ'], ['ਬ', 'ਧ', 'ਵ', 'ਾ', 'ਰ'], ['ਮ', 'ਹ', 'ੀ', 'ਨ', 'ਾ'], ['ਸ', 'ਨ', 'ਿ', 'ਚ', 'ਰ'], ['ਸ', 'ਮ', 'ਵ', 'ਾ', 'ਰ'], ['ਅ', 'ਗ', 'ਸ', 'ਤ'], ['ਅ', 'ਪ', 'ਰ', 'ਲ'], ['ਜ', 'ਲ', 'ਾ', 'ਈ'], ['ਦ', 'ਸ', 'ਬ', 'ਰ'], ['ਨ', 'ਵ', 'ਬ', 'ਰ'], ['ਮ', 'ਾ', 'ਰ', 'ਚ'], ['ਸ', 'ਕ', 'ਿ', 'ਟ'], ['ਸ', 'ਤ', 'ਬ', 'ਰ'], ['ਹ', 'ਫ', 'ਤ', 'ਾ'], ['g', 'm', 't'], ['u', 't', 'c'], ['ਅ', 'ਕ', 'ਤ'], ['ਅ', 'ਪ', 'ਰ'], ['ਘ', 'ਟ', 'ਾ'], ['ਜ', 'ਲ', 'ਾ'], ['ਦ', 'ਿ', 'ਨ'], ['ਬ', 'ਾ', 'ਦ'], ['ਭ', 'ਲ', 'ਕ'], ['ਮ', 'ਗ', 'ਲ'], ['ਮ', 'ਿ', 'ਟ'], ['ਵ', 'ੀ', 'ਰ'], ['ਸ', 'ਕ', 'ਰ'], ['ਸ', 'ਾ', 'ਲ'], ['a', 'm'], ['p', 'm'], ['ਅ', 'ਗ'], ['ਅ', 'ਜ'], ['ਐ', 'ਤ'], ['ਜ', 'ਨ'], ['ਦ', 'ਸ'], ['ਨ', 'ਵ'], ['ਪ', 'ਦ'], ['ਫ', 'ਰ'], ['ਬ', 'ਧ'], ['ਮ', 'ਈ'], ['ਸ', 'ਤ'], ['ਸ', 'ਮ'], ['ਹ', 'ਣ'], [' '], ['\''], ['+'], [','], ['-'], ['.'], ['/'], [':'], [';'], ['@'], ['['], [']'], ['z'], ['|'], ['ਘ']] }

/-- internal/data/pl.go: `pl_Locale`. -/
def plLang : LangData := { plDict with
  abbreviations :=
   [['r']],
  simplifications :=
   [(.seqs [.grp 1 (.alts [.bos, .noWord]), .lit ['d', 'z', 'i', 's'], .grp 2 (.alts [.eos, .noWord])], [.ref 1, .lit ['0', ' ', 'd', 'n', 'i', 'a'], .ref 2]),
    (.seqs [.grp 1 (.alts [.bos, .noWord]), .lit ['d', 'z', 'i', 's', 'i', 'a', 'j'], .grp 2 (.alts [.eos, .noWord])], [.ref 1, .lit ['0', ' ', 'd', 'n', 'i', 'a'], .ref 2]),
    (.seqs [.grp 1 (.alts [.bos, .noWord]), .lit ['o', 'n', 'e', 'g', 'd', 'a', 'j'], .grp 2 (.alts [.eos, .noWord])], [.ref 1, .lit ['2', ' ', 'd', 'n', 'i', 'a'], .ref 2]),
    (.seqs [.grp 1 (.alts [.bos, .noWord]), .lit ['p', 'r', 'z', 'e', 'd', 'w', 'c', 'z', 'o', 'r', 'a', 'j'], .grp 2 (.alts [.eos, .noWord])], [.ref 1, .lit ['2', ' ', 'd', 'n', 'i', 'a', ' ', 't', 'e', 'm', 'u'], .ref 2]),
    (.seqs [.grp 1 (.alts [.bos, .noWord]), .lit ['j', 'u', 't', 'r', 'o'], .grp 2 (.alts [.eos, .noWord])], [.ref 1, .lit ['z', 'a', ' ', '1', ' ', 'd', 'n', 'i', 'a'], .ref 2]),
    (.seqs [.grp 1 (.alts [.bos, .noWord]), .lit ['p', 'o', 'j', 'u', 't', 'r', 'z', 'e'], .grp 2 (.alts [.eos, .noWord])], [.ref 1, .lit ['z', 'a', ' ', '2', ' ', 'd', 'n', 'i', 'a'], .ref 2])],
  relativeRegexes :=
   [(.seqs [.grp 1 (.number), .lit [' ', 'm', 'i', 'e', 's', 'i', 'a', 'c', 'a', ' ', 't', 'e', 'm', 'u']], [.ref 1, .lit [' ', 'm', 'o', 'n', 't', 'h', ' ', 'a', 'g', 'o']]),
    (.seqs [.grp 1 (.number), .lit [' ', 't', 'y', 'g', 'o', 'd', 'n', 'i', 'a', ' ', 't', 'e', 'm', 'u']], [.ref 1, .lit [' ', 'w', 'e', 'e', 'k', ' ', 'a', 'g', 'o']]),
    (.seqs [.grp 1 (.number), .lit [' ', 'g', 'o', 'd', 'z', 'i', 'n', 'e', ' ', 't', 'e', 'm', 'u']], [.ref 1, .lit [' ', 'h', 'o', 'u', 'r', ' ', 'a', 'g', 'o']]),
    (.seqs [.grp 1 (.number), .lit [' ', 'g', 'o', 'd', 'z', 'i', 'n', 'y', ' ', 't', 'e', 'm', 'u']], [.ref 1, .lit [' ', 'h', 'o', 'u', 'r', ' ', 'a', 'g', 'o']]),
    (.seqs [.grp 1 (.number), .lit [' ', 'm', 'i', 'e', 's', 'i', 'a', 'c', ' ', 't', 'e', 'm', 'u']], [.ref 1, .lit [' ', 'm', 'o', 'n', 't', 'h', ' ', 'a', 'g', 'o']]),
    (.seqs [.grp 1 (.number), .lit [' ', 's', 'e', 'k', 'u', 'n', 'd', 'e', ' ', 't', 'e', 'm', 'u']], [.ref 1, .lit [' ', 's', 'e', 'c', 'o', 'n', 'd', ' ', 'a', 'g', 'o']]),
    (.seqs [.grp 1 (.number), .lit [' ', 's', 'e', 'k', 'u', 'n', 'd', 'y', ' ', 't', 'e', 'm', 'u']], [.ref 1, .lit [' ', 's', 'e', 'c', 'o', 'n', 'd', ' ', 'a', 'g', 'o']]),
    (.seqs [.grp 1 (.number), .lit [' ', 't', 'y', 'd', 'z', 'i', 'e', 'n', ' ', 't', 'e', 'm', 'u']], [.ref 1, .lit [' ', 'w', 'e', 'e', 'k', ' ', 'a', 'g', 'o']]),
    (.seqs [.grp 1 (.number), .lit [' ', 'm', 'i', 'n', 'u', 't', 'e', ' ', 't', 'e', 'm', 'u']], [.ref 1, .lit [' ', 'm', 'i', 'n', 'u', 't', 'e', ' ', 'a', 'g', 'o']]),
    (.seqs [.grp 1 (.number), .lit [' ', 'm', 'i', 'n', 'u', 't', 'y', ' ', 't', 'e', 'm', 'u']], [.ref 1, .lit [' ', 'm', 'i', 'n', 'u', 't', 'e', ' ', 'a', 'g', 'o']]),
    (.seqs [.lit ['z', 'a', ' '], .grp 1 (.number), .lit [' ', 'm', 'i', 'e', 's', 'i', 'a', 'c', 'a']], [.lit ['i', 'n', ' '], .ref 1, .lit [' ', 'm', 'o', 'n', 't', 'h']]),
    (.seqs [.lit ['z', 'a', ' '], .grp 1 (.number), .lit [' ', 't', 'y', 'g', 'o', 'd', 'n', 'i', 'a']], [.lit ['i', 'n', ' '], .ref 1, .lit [' ', 'w', 'e', 'e', 'k']]),
    (.seqs [.grp 1 (.number), .lit [' ', 'd', 'z', 'i', 'e', 'n', ' ', 't', 'e', 'm', 'u']], [.ref 1, .lit [' ', 'd', 'a', 'y', ' ', 'a', 'g', 'o']]),
    (.seqs [.lit ['z', 'a', ' '], .grp 1 (.number), .lit [' ', 'g', 'o', 'd', 'z', 'i', 'n', 'e']], [.lit ['i', 'n', ' '], .ref 1, .lit [' ', 'h', 'o', 'u', 'r']]),
    (.seqs [.lit ['z', 'a', ' '], .grp 1 (.number), .lit [' ', 'g', 'o', 'd', 'z', 'i', 'n', 'y']], [.lit ['i', 'n', ' '], .ref 1, .lit [' ', 'h', 'o', 'u', 'r']]),
    (.seqs [.lit ['z', 'a', ' '], .grp 1 (.number), .lit [' ', 'm', 'i', 'e', 's', 'i', 'a', 'c']], [.lit ['i', 'n', ' '], .ref 1, .lit [' ', 'm', 'o', 'n', 't', 'h']]),
    (.seqs [.lit ['z', 'a', ' '], .grp 1 (.number), .lit [' ', 's', 'e', 'k', 'u', 'n', 'd', 'e']], [.lit ['i', 'n', ' '], .ref 1, .lit [' ', 's', 'e', 'c', 'o', 'n', 'd']]),
    (.seqs [.lit ['z', 'a', ' '], .grp 1 (.number), .lit [' ', 's', 'e', 'k', 'u', 'n', 'd', 'y']], [.lit ['i', 'n', ' '], .ref 1, .lit [' ', 's', 'e', 'c', 'o', 'n', 'd']]),
    (.seqs [.lit ['z', 'a', ' '], .grp 1 (.number), .lit [' ', 't', 'y', 'd', 'z', 'i', 'e', 'n']], [.lit ['i', 'n', ' '], .ref 1, .lit [' ', 'w', 'e', 'e', 'k']]),
    (.seqs [.grp 1 (.number), .lit [' ', 'd', 'n', 'i', 'a', ' ', 't', 'e', 'm', 'u']], [.ref 1, .lit [' ', 'd', 'a', 'y', ' ', 'a', 'g', 'o']]),
    (.seqs [.grp 1 (.number), .lit [' ', 'g', 'o', 'd', 'z', ' ', 't', 'e', 'm', 'u']], [.ref 1, .lit [' ', 'h', 'o', 'u', 'r', ' ', 'a', 'g', 'o']]),
    (.seqs [.grp 1 (.number), .lit [' ', 'm', 'i', 'e', 's', ' ', 't', 'e', 'm', 'u']], [.ref 1, .lit [' ', 'm', 'o', 'n', 't', 'h', ' ', 'a', 'g', 'o']]),
    (.seqs [.grp 1 (.number), .lit [' ', 'r', 'o', 'k', 'u', ' ', 't', 'e', 'm', 'u']], [.ref 1, .lit [' ', 'y', 'e', 'a', 'r', ' ', 'a', 'g', 'o']]),
    (.seqs [.grp 1 (.number), .lit [' ', 't', 'y', 'd', 'z', ' ', 't', 'e', 'm', 'u']], [.ref 1, .lit [' ', 'w', 'e', 'e', 'k', ' ', 'a', 'g', 'o']]),
    (.seqs [.lit ['z', 'a', ' '], .grp 1 (.number), .lit [' ', 'm', 'i', 'n', 'u', 't', 'e']], [.lit ['i', 'n', ' '], .ref 1, .lit [' ', 'm', 'i', 'n', 'u', 't', 'e']]),
    (.seqs [.lit ['z', 'a', ' '], .grp 1 (.number), .lit [' ', 'm', 'i', 'n', 'u', 't', 'y']], [.lit ['i', 'n', ' '], .ref 1, .lit [' ', 'm', 'i', 'n', 'u', 't', 'e']]),
    (.seqs [.grp 1 (.number), .lit [' ', 'm', 'i', 'n', ' ', 't', 'e', 'm', 'u']], [.ref 1, .lit [' ', 'm', 'i', 'n', 'u', 't', 'e', ' ', 'a', 'g', 'o']]),
    (.seqs [.grp 1 (.number), .lit [' ', 'r', 'o', 'k', ' ', 't', 'e', 'm', 'u']], [.ref 1, .lit [' ', 'y', 'e', 'a', 'r', ' ', 'a', 'g', 'o']]),
    (.seqs [.grp 1 (.number), .lit [' ', 's', 'e', 'k', ' ', 't', 'e', 'm', 'u']], [.ref 1, .lit [' ', 's', 'e', 'c', 'o', 'n', 'd', ' ', 'a', 'g', 'o']]),
    (.seqs [.grp 1 (.number), .lit [' ', 't', 'y', 'g', ' ', 't', 'e', 'm', 'u']], [.ref 1, .lit [' ', 'w', 'e', 'e', 'k', ' ', 'a', 'g', 'o']]),
    (.seqs [.lit ['z', 'a', ' '], .grp 1 (.number), .lit [' ', 'd', 'z', 'i', 'e', 'n']], [.lit ['i', 'n', ' '], .ref 1, .lit [' ', 'd', 'a', 'y']]),
    (.seqs [.lit ['z', 'a', ' '], .grp 1 (.number), .lit [' ', 'd', 'n', 'i', 'a']], [.lit ['i', 'n', ' '], .ref 1, .lit [' ', 'd', 'a', 'y']]),
    (.seqs [.lit ['z', 'a', ' '], .grp 1 (.number), .lit [' ', 'g', 'o', 'd', 'z']], [.lit ['i', 'n', ' '], .ref 1, .lit [' ', 'h', 'o', 'u', 'r']]),
    (.seqs [.lit ['z', 'a', ' '], .grp 1 (.number), .lit [' ', 'm', 'i', 'e', 's']], [.lit ['i', 'n', ' '], .ref 1, .lit [' ', 'm', 'o', 'n', 't', 'h']]),
    (.seqs [.lit ['z', 'a', ' '], .grp 1 (.number), .lit [' ', 'r', 'o', 'k', 'u']], [.lit ['i', 'n', ' '], .ref 1, .lit [' ', 'y', 'e', 'a', 'r']]),
    (.seqs [.lit ['z', 'a', ' '], .grp 1 (.number), .lit [' ', 't', 'y', 'd', 'z']], [.lit ['i', 'n', ' '], .ref 1, .lit [' ', 'w', 'e', 'e', 'k']]),
    (.seqs [.grp 1 (.number), .lit [' ', 'g', ' ', 't', 'e', 'm', 'u']], [.ref 1, .lit [' ', 'h', 'o', 'u', 'r', ' ', 'a', 'g', 'o']]),
    (.seqs [.grp 1 (.number), .lit [' ', 's', ' ', 't', 'e', 'm', 'u']], [.ref 1, .lit [' ', 's', 'e', 'c', 'o', 'n', 'd', ' ', 'a', 'g', 'o']]),
    (.seqs [.lit ['z', 'a', ' '], .grp 1 (.number), .lit [' ', 'm', 'i', 'n']], [.lit ['i', 'n', ' '], .ref 1, .lit [' ', 'm', 'i', 'n', 'u', 't', 'e']]),
    (.seqs [.lit ['z', 'a', ' '], .grp 1 (.number), .lit [' ', 'r', 'o', 'k']], [.lit ['i', 'n', ' '], .ref 1, .lit [' ', 'y', 'e', 'a', 'r']]),
    (.seqs [.lit ['z', 'a', ' '], .grp 1 (.number), .lit [' ', 's', 'e', 'k']], [.lit ['i', 'n', ' '], .ref 1, .lit [' ', 's', 'e', 'c', 'o', 'n', 'd']]),
    (.seqs [.lit ['z', 'a', ' '], .grp 1 (.number), .lit [' ', 't', 'y', 'g']], [.lit ['i', 'n', ' '], .ref 1, .lit [' ', 'w', 'e', 'e', 'k']]),
    (.seqs [.lit ['–'], .grp 1 (.number), .lit [' ', 'm', 'i', 'e', 's']], [.ref 1, .lit [' ', 'm', 'o', 'n', 't', 'h', ' ', 'a', 'g', 'o']]),
    (.seqs [.lit ['z', 'a', ' '], .grp 1 (.number), .lit [' ', 'g']], [.lit ['i', 'n', ' '], .ref 1, .lit [' ', 'h', 'o', 'u', 'r']]),
    (.seqs [.lit ['z', 'a', ' '], .grp 1 (.number), .lit [' ', 's']], [.lit ['i', 'n', ' '], .ref 1, .lit [' ', 's', 'e', 'c', 'o', 'n', 'd']])],
  rxCombined := some (.seqs [.grp 1 (.alts [.bos, .cls true [.letter, .mark, .digit], .lit ['_']]), .grp 2 (.alts [.seqs [.number, .lit [' ', 'm', 'i', 'e', 's', 'i', 'a', 'c', 'a', ' ', 't', 'e', 'm', 'u']], .seqs [.number, .lit [' ', 't', 'y', 'g', 'o', 'd', 'n', 'i', 'a', ' ', 't', 'e', 'm', 'u']], .seqs [.number, .lit [' ', 'g', 'o', 'd', 'z', 'i', 'n', 'e', ' ', 't', 'e', 'm', 'u']], .seqs [.number, .lit [' ', 'g', 'o', 'd', 'z', 'i', 'n', 'y', ' ', 't', 'e', 'm', 'u']], .seqs [.number, .lit [' ', 'm', 'i', 'e', 's', 'i', 'a', 'c', ' ', 't', 'e', 'm', 'u']], .seqs [.number, .lit [' ', 's', 'e', 'k', 'u', 'n', 'd', 'e', ' ', 't', 'e', 'm', 'u']], .seqs [.number, .lit [' ', 's', 'e', 'k', 'u', 'n', 'd', 'y', ' ', 't', 'e', 'm', 'u']], .seqs [.number, .lit [' ', 't', 'y', 'd', 'z', 'i', 'e', 'n', ' ', 't', 'e', 'm', 'u']], .seqs [.number, .lit [' ', 'm', 'i', 'n', 'u', 't', 'e', ' ', 't', 'e', 'm', 'u']], .seqs [.number, .lit [' ', 'm', 'i', 'n', 'u', 't', 'y', ' ', 't', 'e', 'm', 'u']], .seqs [.lit ['z', 'a', ' '], .number, .lit [' ', 'm', 'i', 'e', 's', 'i', 'a', 'c', 'a']], .seqs [.lit ['z', 'a', ' '], .number, .lit [' ', 't', 'y', 'g', 'o', 'd', 'n', 'i', 'a']], .seqs [.number, .lit [' ', 'd', 'z', 'i', 'e', 'n', ' ', 't', 'e', 'm', 'u']], .seqs [.lit ['z', 'a', ' '], .number, .lit [' ', 'g', 'o', 'd', 'z', 'i', 'n', 'e']], .seqs [.lit ['z', 'a', ' '], .number, .lit [' ', 'g', 'o', 'd', 'z', 'i', 'n', 'y']], .seqs [.lit ['z', 'a', ' '], .number, .lit [' ', 'm', 'i', 'e', 's', 'i', 'a', 'c']], .seqs [.lit ['z', 'a', ' '], .number, .lit [' ', 's', 'e', 'k', 'u', 'n', 'd', 'e']], .seqs [.lit ['z', 'a', ' '], .number, .lit [' ', 's', 'e', 'k', 'u', 'n', 'd', 'y']], .seqs [.lit ['z', 'a', ' '], .number, .lit [' ', 't', 'y', 'd', 'z', 'i', 'e', 'n']], .seqs [.number, .lit [' ', 'd', 'n', 'i', 'a', ' ', 't', 'e', 'm', 'u']], .seqs [.number, .lit [' ', 'g', 'o', 'd', 'z', ' ', 't', 'e', 'm', 'u']], .seqs [.number, .lit [' ', 'm', 'i', 'e', 's', ' ', 't', 'e', 'm', 'u']], .seqs [.number, .lit [' ', 'r', 'o', 'k', 'u', ' ', 't', 'e', 'm', 'u']], .seqs [.number, .lit [' ', 't', 'y', 'd', 'z', ' ', 't', 'e', 'm', 'u']], .seqs [.lit ['z', 'a', ' '], .number, .lit [' ', 'm', 'i', 'n', 'u', 't', 'e']], .seqs [.lit ['z', 'a', ' '], .number, .lit [' ', 'm', 'i', 'n', 'u', 't', 'y']], .seqs [.number, .lit [' ', 'm', 'i', 'n', ' ', 't', 'e', 'm', 'u']], .seqs [.number, .lit [' ', 'r', 'o', 'k', ' ', 't', 'e', 'm', 'u']], .seqs [.number, .lit [' ', 's', 'e', 'k', ' ', 't', 'e', 'm', 'u']], .seqs [.number, .lit [' ', 't', 'y', 'g', ' ', 't', 'e', 'm', 'u']], .seqs [.lit ['z', 'a', ' '], .number, .lit [' ', 'd', 'z', 'i', 'e', 'n']], .seqs [.lit ['z', 'a', ' '], .number, .lit [' ', 'd', 'n', 'i', 'a']], .seqs [.lit ['z', 'a', ' '], .number, .lit [' ', 'g', 'o', 'd', 'z']], .seqs [.lit ['z', 'a', ' '], .number, .lit [' ', 'm', 'i', 'e', 's']], .seqs [.lit ['z', 'a', ' '], .number, .lit [' ', 'r', 'o', 'k', 'u']], .seqs [.lit ['z', 'a', ' '], .number, .lit [' ', 't', 'y', 'd', 'z']], .seqs [.number, .lit [' ', 'g', ' ', 't', 'e', 'm', 'u']], .seqs [.number, .lit [' ', 's', ' ', 't', 'e', 'm', 'u']], .seqs [.lit ['z', 'a', ' '], .number, .lit [' ', 'm', 'i', 'n']], .seqs [.lit ['z', 'a', ' '], .number, .lit [' ', 'r', 'o', 'k']], .seqs [.lit ['z', 'a', ' '], .number, .lit [' ', 's', 'e', 'k']], .seqs [.lit ['z', 'a', ' '], .number, .lit [' ', 't', 'y', 'g']], .seqs [.lit ['–'], .number, .lit [' ', 'm', 'i', 'e', 's']], .seqs [.lit ['z', 'a', ' '], .number, .lit [' ', 'g']], .seqs [.lit ['z', 'a', ' '], .number, .lit [' ', 's']]]), .grp 3 (.alts [.eos, .cls true [.letter, .mark, .digit], .lit ['_']])], 3),
  rxExact := some (.seqs [.bos, .grp 1 (.alts [.seqs [.number, .lit [' ', 'm', 'i', 'e', 's', 'i', 'a', 'c', 'a', ' ', 't', 'e', 'm', 'u']], .seqs [.number, .lit [' ', 't', 'y', 'g', 'o', 'd', 'n', 'i', 'a', ' ', 't', 'e', 'm', 'u']], .seqs [.number, .lit [' ', 'g', 'o', 'd', 'z', 'i', 'n', 'e', ' ', 't', 'e', 'm', 'u']], .seqs [.number, .lit [' ', 'g', 'o', 'd', 'z', 'i', 'n', 'y', ' ', 't', 'e', 'm', 'u']], .seqs [.number, .lit [' ', 'm', 'i', 'e', 's', 'i', 'a', 'c', ' ', 't', 'e', 'm', 'u']], .seqs [.number, .lit [' ', 's', 'e', 'k', 'u', 'n', 'd', 'e', ' ', 't', 'e', 'm', 'u']], .seqs [.number, .lit [' ', 's', 'e', 'k', 'u', 'n', 'd', 'y', ' ', 't', 'e', 'm', 'u']], .seqs [.number, .lit [' ', 't', 'y', 'd', 'z', 'i', 'e', 'n', ' ', 't', 'e', 'm', 'u']], .seqs [.number, .lit [' ', 'm', 'i', 'n', 'u', 't', 'e', ' ', 't', 'e', 'm', 'u']], .seqs [.number, .lit [' ', 'm', 'i', 'n', 'u', 't', 'y', ' ', 't', 'e', 'm', 'u']], .seqs [.lit ['z', 'a', ' '], .number, .lit [' ', 'm', 'i', 'e', 's', 'i', 'a', 'c', 'a']], .seqs [.lit ['z', 'a', ' '], .number, .lit [' ', 't', 'y', 'g', 'o', 'd', 'n', 'i', 'a']], .seqs [.number, .lit [' ', 'd', 'z', 'i', 'e', 'n', ' ', 't', 'e', 'm', 'u']], .seqs [.lit ['z', 'a', ' '], .number, .lit [' ', 'g', 'o', 'd', 'z', 'i', 'n', 'e']], .seqs [.lit ['z', 'a', ' '], .number, .lit [' ', 'g', 'o', 'd', 'z', 'i', 'n', 'y']], .seqs [.lit ['z', 'a', ' '], .number, .lit [' ', 'm', 'i', 'e', 's', 'i', 'a', 'c']], .seqs [.lit ['z', 'a', ' '], .number, .lit [' ', 's', 'e', 'k', 'u', 'n', 'd', 'e']], .seqs [.lit ['z', 'a', ' '], .number, .lit [' ', 's', 'e', 'k', 'u', 'n', 'd', 'y']], .seqs [.lit ['z', 'a', ' '], .number, .lit [' ', 't', 'y', 'd', 'z', 'i', 'e', 'n']], .seqs [.number, .lit [' ', 'd', 'n', 'i', 'a', ' ', 't', 'e', 'm', 'u']], .seqs [.number, .lit [' ', 'g', 'o', 'd', 'z', ' ', 't', 'e', 'm', 'u']], .seqs [.number, .lit [' ', 'm', 'i', 'e', 's', ' ', 't', 'e', 'm', 'u']], .seqs [.number, .lit [' ', 'r', 'o', 'k', 'u', ' ', 't', 'e', 'm', 'u']], .seqs [.number, .lit [' ', 't', 'y', 'd', 'z', ' ', 't', 'e', 'm', 'u']], .seqs [.lit ['z', 'a', ' '], .number, .lit [' ', 'm', 'i', 'n', 'u', 't', 'e']], .seqs [.lit ['z', 'a', ' '], .number, .lit [' ', 'm', 'i', 'n', 'u', 't', 'y']], .seqs [.number, .lit [' ', 'm', 'i', 'n', ' ', 't', 'e', 'm', 'u']], .seqs [.number, .lit [' ', 'r', 'o', 'k', ' ', 't', 'e', 'm', 'u']], .seqs [.number, .lit [' ', 's', 'e', 'k', ' ', 't', 'e', 'm', 'u']], .seqs [.number, .lit [' ', 't', 'y', 'g', ' ', 't', 'e', 'm', 'u']], .seqs [.lit ['z', 'a', ' '], .number, .lit [' ', 'd', 'z', 'i', 'e', 'n']], .seqs [.lit ['z', 'a', ' '], .number, .lit [' ', 'd', 'n', 'i', 'a']], .seqs [.lit ['z', 'a', ' '], .number, .lit [' ', 'g', 'o', 'd', 'z']], .seqs [.lit ['z', 'a', ' '], .number, .lit [' ', 'm', 'i', 'e', 's']], .seqs [.lit ['z', 'a', ' '], .number, .lit [' ', 'r', 'o', 'k', 'u']], .seqs [.lit ['z', 'a', ' '], .number, .lit [' ', 't', 'y', 'd', 'z']], .seqs [.number, .lit [' ', 'g', ' ', 't', 'e', 'm', 'u']], .seqs [.number, .lit [' ', 's', ' ', 't', 'e', 'm', 'u']], .seqs [.lit ['z', 'a', ' '], .number, .lit [' ', 'm', 'i', 'n']], .seqs [.lit ['z', 'a', ' '], .number, .lit [' ', 'r', 'o', 'k']], .seqs [.lit ['z', 'a', ' '], .number, .lit [' ', 's', 'e', 'k']], .seqs [.lit ['z', 'a', ' '], .number, .lit [' ', 't', 'y', 'g']], .seqs [.lit ['–'], .number, .lit [' ', 'm', 'i', 'e', 's']], .seqs [.lit ['z', 'a', ' '], .number, .lit [' ', 'g']], .seqs [.lit ['z', 'a', ' '], .number, .lit [' ', 's']]]), .eos]),
  knownWords :=
   [['w', ' ', 'p', 'r', 'z', 'y', 's', 'z', 'ł', 'y', 'm', ' ', 'm', 'i', 'e', 's', 'i', 'a', 'c', 'u'], ['w', ' ', 'p', 'r', 'z', 'y', 's', 'z', 'ł', 'y', 'm', ' ', 't', 'y', 'g', 'o', 'd', 'n', 'i', 'u'], ['w', ' ', 'z', 'e', 's', 'z', 'ł', 'y', 'm', ' ', 'm', 'i', 'e', 's', 'i', 'a', 'c', 'u'], ['w', ' ', 'z', 'e', 's', 'z', 'ł', 'y', 'm', ' ', 't', 'y', 'g', 'o', 'd', 'n', 'i', 'u'], ['w', ' ', 'p', 'r', 'z', 'y', 's', 'z', 'ł', 'y', 'm', ' ', 'r', 'o', 'k', 'u'], ['w', ' ', 't', 'y', 'm', ' ', 'm', 'i', 'e', 's', 'i', 'a', 'c', 'u'], ['w', ' ', 't', 'y', 'm', ' ', 't', 'y', 'g', 'o', 'd', 'n', 'i', 'u'], ['w', ' ', 'z', 'e', 's', 'z', 'ł', 'y', 'm', ' ', 'r', 'o', 'k', 'u'], ['p', 'a', 'z', 'd', 'z', 'i', 'e', 'r', 'n', 'i', 'k', 'a'], ['p', 'a', 'z', 'd', 'z', 'i', 'e', 'r', 'n', 'i', 'k', 'u'], ['p', 'o', 'n', 'i', 'e', 'd', 'z', 'i', 'a', 'l', 'e', 'k'], ['p', 'o', 'n', 'i', 'e', 'd', 'z', 'i', 'a', 'ł', 'e', 'k'], ['l', 'i', 's', 't', 'o', 'p', 'a', 'd', 'z', 'i', 'e'], ['p', 'a', 'z', 'd', 'z', 'i', 'e', 'r', 'n', 'i', 'k'], ['t', 'a', ' ', 'g', 'o', 'd', 'z', 'i', 'n', 'a'], ['w', ' ', 't', 'y', 'm', ' ', 'r', 'o', 'k', 'u'], ['l', 'i', 's', 't', 'o', 'p', 'a', 'd', 'a'], ['n', 'i', 'e', 'd', 'z', 'i', 'e', 'l', 'a'], ['n', 'i', 'e', 'd', 'z', 'i', 'e', 'l', 'e'], ['t', 'a', ' ', 'm', 'i', 'n', 'u', 't', 'a'], ['c', 'z', 'e', 'r', 'w', 'i', 'e', 'c'], ['c', 'z', 'w', 'a', 'r', 't', 'e', 'k'], ['g', 'r', 'u', 'd', 'z', 'i', 'e', 'n'], ['k', 'w', 'i', 'e', 'c', 'i', 'e', 'n'], ['k', 'w', 'i', 'e', 't', 'n', 'i', 'a'], ['k', 'w', 'i', 'e', 't', 'n', 'i', 'u'], ['l', 'i', 's', 't', 'o', 'p', 'a', 'd'], ['m', 'i', 'e', 's', 'i', 'a', 'c', 'a'], ['m', 'i', 'e', 's', 'i', 'a', 'c', 'e'], ['m', 'i', 'e', 's', 'i', 'e', 'c', 'y'], ['s', 'i', 'e', 'r', 'p', 'i', 'e', 'n'], ['s', 'i', 'e', 'r', 'p', 'n', 'i', 'a'], ['s', 'i', 'e', 'r', 'p', 'n', 'i', 'u'], ['s', 't', 'y', 'c', 'z', 'n', 'i', 'a'], ['s', 't', 'y', 'c', 'z', 'n', 'i', 'u'], ['t', 'y', 'g', 'o', 'd', 'n', 'i', 'e'], ['w', 'r', 'z', 'e', 's', 'i', 'e', 'n'], ['w', 'r', 'z', 'e', 's', 'n', 'i', 'a'], ['w', 'r', 'z', 'e', 's', 'n', 'i', 'u'], ['c', 'z', 'e', 'r', 'w', 'c', 'a'], ['c', 'z', 'e', 'r', 'w', 'c', 'u'], ['d', 'z', 'i', 's', 'i', 'a', 'j'], ['g', 'o', 'd', 'z', 'i', 'n', 'a'], ['g', 'o', 'd', 'z', 'i', 'n', 'e'], ['g', 'o', 'd', 'z', 'i', 'n', 'y'], ['g', 'r', 'u', 'd', 'n', 'i', 'a'], ['g', 'r', 'u', 'd', 'n', 'i', 'u'], ['m', 'i', 'e', 's', 'i', 'a', 'c'], ['s', 'e', 'k', 'u', 'n', 'd', 'a'], ['s', 'e', 'k', 'u', 'n', 'd', 'e'], ['s', 'e', 'k', 'u', 'n', 'd', 'y'], ['s', 't', 'y', 'c', 'z', 'e', 'n'], ['t', 'y', 'd', 'z', 'i', 'e', 'n'], ['t', 'y', 'g', 'o', 'd', 'n', 'i'], ['w', 'c', 'z', 'o', 'r', 'a', 'j'], ['g', 'o', 'd', 'z', 'i', 'n'], ['l', 'i', 'p', 'i', 'e', 'c'], ['l', 'u', 't', 'e', 'g', 'o'], ['m', 'a', 'r', 'z', 'e', 'c'], ['m', 'i', 'n', 'u', 't', 'a'], ['m', 'i', 'n', 'u', 't', 'e'], ['m', 'i', 'n', 'u', 't', 'y'], ['p', 'i', 'a', 't', 'e', 'k'], ['s', 'e', 'k', 'u', 'n', 'd'], ['s', 'o', 'b', 'o', 't', 'a'], ['s', 'o', 'b', 'o', 't', 'e'], ['w', 't', 'o', 'r', 'e', 'k'], ['d', 'z', 'i', 'e', 'n'], ['j', 'u', 't', 'r', 'o'], ['l', 'i', 'p', 'c', 'a'], ['l', 'i', 'p', 'c', 'u'], ['l', 'u', 't', 'y', 'm'], ['m', 'a', 'r', 'c', 'a'], ['m', 'a', 'r', 'c', 'u'], ['m', 'i', 'n', 'u', 't'], ['n', 'i', 'e', 'd', 'z'], ['s', 'r', 'o', 'd', 'a'], ['s', 'r', 'o', 'd', 'e'], ['t', 'e', 'r', 'a', 'z'], ['d', 'n', 'i', 'a'], ['d', 'n', 'i', 'u'], ['g', 'o', 'd', 'z'], ['k', 'w', 'i', 'e'], ['l', 'a', 't', 'a'], ['l', 'u', 't', 'y'], ['m', 'a', 'j', 'a'], ['m', 'a', 'j', 'u'], ['m', 'i', 'e', 's'], ['r', 'o', 'k', 'u'], ['t', 'e', 'm', 'u'], ['t', 'y', 'd', 'z'], ['c', 'z', 'e'], ['c', 'z', 'w'], ['d', 'n', 'i'], ['g', 'm', 't'], ['g', 'r', 'u'], ['k', 'w', 'i'], ['l', 'a', 't'], ['l', 'i', 'p'], ['l', 'i', 's'], ['l', 'u', 't'], ['m', 'a', 'j'], ['m', 'a', 'r'], ['m', 'i', 'n'], ['n', 'i', 'e'], ['p', 'a', 'z'], ['p', 'i', 'a'], ['p', 'o', 'n'], ['r', 'o', 'k'], ['s', 'e', 'k'], ['s', 'i', 'e'], ['s', 'o', 'b'], ['s', 'r', 'o'], ['s', 't', 'y'], ['u', 't', 'c'], ['w', 'r', 'z'], ['w', 't', 'o'], ['a', 'm'], ['c', 'z'], ['m', 'c'], ['n', 'd'], ['p', 'i'], ['p', 'm'], ['p', 'n'], ['p', 't'], ['r', '.'], ['s', 'b'], ['s', 'o'], ['s', 'r'], ['w', 't'], ['z', 'a'], [' '], ['\''], ['+'], [','], ['-'], ['.'], ['/'], [':'], [';'], ['@'], ['['], [']'], ['g'], ['i'], ['o'], ['r'], ['s'], ['w'], ['z'], ['|']] }

/-- internal/data/ps.go: `ps_Locale`. -/
def psLang : LangData := { psDict with
  knownWords :=
   [['t', 'h', 'i', 's', ' ', 'm', 'i', 'n', 'u', 't', 'e'], ['l', 'a', 's', 't', ' ', 'm', 'o', 'n', 't', 'h'], ['n', 'e', 'x', 't', ' ', 'm', 'o', 'n', 't', 'h'], ['t', 'h', 'i', 's', ' ', 'm', 'o', 'n', 't', 'h'], ['l', 'a', 's', 't', ' ', 'w', 'e', 'e', 'k'], ['l', 'a', 's', 't', ' ', 'y', 'e', 'a', 'r'], ['n', 'e', 'x', 't', ' ', 'w', 'e', 'e', 'k'], ['n', 'e', 'x', 't', ' ', 'y', 'e', 'a', 'r'], ['t', 'h', 'i', 's', ' ', 'h', 'o', 'u', 'r'], ['t', 'h', 'i', 's', ' ', 'w', 'e', 'e', 'k'], ['t', 'h', 'i', 's', ' ', 'y', 'e', 'a', 'r'], ['y', 'e', 's', 't', 'e', 'r', 'd', 'a', 'y'], ['t', 'o', 'm', 'o', 'r', 'r', 'o', 'w'], ['چ', 'ه', 'ا', 'ر', 'ش', 'ن', 'ب', 'ه'], ['س', 'ه', (Char.ofNat 0x200c), 'ش', 'ن', 'ب', 'ه'], ['پ', 'ن', 'ج', 'ش', 'ن', 'ب', 'ه'], ['m', 'i', 'n', 'u', 't', 'e'], ['s', 'e', 'c', 'o', 'n', 'd'], ['ا', 'ک', 'ت', 'و', 'ب', 'ر'], ['د', 'و', 'ش', 'ن', 'ب', 'ه'], ['س', 'پ', 'ت', 'م', 'ب', 'ر'], ['ف', 'ب', 'ر', 'و', 'ر', 'ي'], ['ی', 'ک', 'ش', 'ن', 'ب', 'ه'], ['m', 'o', 'n', 't', 'h'], ['t', 'o', 'd', 'a', 'y'], ['ا', 'پ', 'ر', 'ی', 'ل'], ['ج', 'ن', 'و', 'ر', 'ي'], ['ج', 'و', 'ل', 'ا', 'ی'], ['د', 'س', 'م', 'ب', 'ر'], ['ن', 'و', 'م', 'ب', 'ر'], ['h', 'o', 'u', 'r'], ['w', 'e', 'e', 'k'], ['y', 'e', 'a', 'r'], ['ا', 'ګ', 'س', 'ت'], ['ج', 'م', 'ع', 'ه'], ['ش', 'ن', 'ب', 'ه'], ['م', 'ا', 'ر', 'چ'], ['d', 'a', 'y'], ['g', 'm', 't'], ['n', 'o', 'w'], ['u', 't', 'c'], ['ج', 'و', 'ن'], ['a', 'm'], ['p', 'm'], ['غ', 'م'], ['غ', 'و'], ['م', 'ۍ'], [' '], ['\''], ['+'], [','], ['-'], ['.'], ['/'], [':'], [';'], ['@'], ['['], [']'], ['z'], ['|']] }

/-- internal/data/pt.go: `pt_Locale`. -/
def ptLang : LangData := { ptDict with
  simplifications :=
   [(.seqs [.grp 1 (.alts [.bos, .noWord]), .lit ['u', 'm', 'a'], .grp 2 (.alts [.eos, .noWord])], [.ref 1, .lit ['1'], .ref 2]),
    (.seqs [.grp 1 (.alts [.bos, .noWord]), .lit ['u', 'm'], .grp 2 (.alts [.eos, .noWord])], [.ref 1, .lit ['1'], .ref 2]),
    (.seqs [.grp 1 (.alts [.bos, .noWord]), .lit ['a', 'l', 'g', 'u', 'n', 's', ' ', 's', 'e', 'g', 'u', 'n', 'd', 'o', 's'], .grp 2 (.alts [.eos, .noWord])], [.ref 1, .lit ['4', '4', ' ', 's', 'e', 'g', 'u', 'n', 'd', 'o', 's'], .ref 2])],
  relativeRegexes :=
   [(.seqs [.lit ['e', 'm', ' '], .grp 1 (.number), .lit [' ', 's', 'e', 'g', 'u', 'n', 'd', 'o', 's']], [.lit ['i', 'n', ' '], .ref 1, .lit [' ', 's', 'e', 'c', 'o', 'n', 'd']]),
    (.seqs [.lit ['h', 'a', ' '], .grp 1 (.number), .lit [' ', 's', 'e', 'g', 'u', 'n', 'd', 'o', 's']], [.ref 1, .lit [' ', 's', 'e', 'c', 'o', 'n', 'd', ' ', 'a', 'g', 'o']]),
    (.seqs [.lit ['e', 'm', ' '], .grp 1 (.number), .lit [' ', 'm', 'i', 'n', 'u', 't', 'o', 's']], [.lit ['i', 'n', ' '], .ref 1, .lit [' ', 'm', 'i', 'n', 'u', 't', 'e']]),
    (.seqs [.lit ['e', 'm', ' '], .grp 1 (.number), .lit [' ', 's', 'e', 'g', 'u', 'n', 'd', 'o']], [.lit ['i', 'n', ' '], .ref 1, .lit [' ', 's', 'e', 'c', 'o', 'n', 'd']]),
    (.seqs [.lit ['e', 'm', ' '], .grp 1 (.number), .lit [' ', 's', 'e', 'm', 'a', 'n', 'a', 's']], [.lit ['i', 'n', ' '], .ref 1, .lit [' ', 'w', 'e', 'e', 'k']]),
    (.seqs [.lit ['h', 'a', ' '], .grp 1 (.number), .lit [' ', 'm', 'i', 'n', 'u', 't', 'o', 's']], [.ref 1, .lit [' ', 'm', 'i', 'n', 'u', 't', 'e', ' ', 'a', 'g', 'o']]),
    (.seqs [.lit ['h', 'a', ' '], .grp 1 (.number), .lit [' ', 's', 'e', 'g', 'u', 'n', 'd', 'o']], [.ref 1, .lit [' ', 's', 'e', 'c', 'o', 'n', 'd', ' ', 'a', 'g', 'o']]),
    (.seqs [.lit ['h', 'a', ' '], .grp 1 (.number), .lit [' ', 's', 'e', 'm', 'a', 'n', 'a', 's']], [.ref 1, .lit [' ', 'w', 'e', 'e', 'k', ' ', 'a', 'g', 'o']]),
    (.seqs [.lit ['e', 'm', ' '], .grp 1 (.number), .lit [' ', 'm', 'i', 'n', 'u', 't', 'o']], [.lit ['i', 'n', ' '], .ref 1, .lit [' ', 'm', 'i', 'n', 'u', 't', 'e']]),
    (.seqs [.lit ['e', 'm', ' '], .grp 1 (.number), .lit [' ', 's', 'e', 'm', 'a', 'n', 'a']], [.lit ['i', 'n', ' '], .ref 1, .lit [' ', 'w', 'e', 'e', 'k']]),
    (.seqs [.lit ['h', 'a', ' '], .grp 1 (.number), .lit [' ', 'm', 'i', 'n', 'u', 't', 'o']], [.ref 1, .lit [' ', 'm', 'i', 'n', 'u', 't', 'e', ' ', 'a', 'g', 'o']]),
    (.seqs [.lit ['h', 'a', ' '], .grp 1 (.number), .lit [' ', 's', 'e', 'm', 'a', 'n', 'a']], [.ref 1, .lit [' ', 'w', 'e', 'e', 'k', ' ', 'a', 'g', 'o']]),
    (.seqs [.lit ['e', 'm', ' '], .grp 1 (.number), .lit [' ', 'h', 'o', 'r', 'a', 's']], [.lit ['i', 'n', ' '], .ref 1, .lit [' ', 'h', 'o', 'u', 'r']]),
    (.seqs [.lit ['e', 'm', ' '], .grp 1 (.number), .lit [' ', 'm', 'e', 's', 'e', 's']], [.lit ['i', 'n', ' '], .ref 1, .lit [' ', 'm', 'o', 'n', 't', 'h']]),
    (.seqs [.lit ['h', 'a', ' '], .grp 1 (.number), .lit [' ', 'h', 'o', 'r', 'a', 's']], [.ref 1, .lit [' ', 'h', 'o', 'u', 'r', ' ', 'a', 'g', 'o']]),
    (.seqs [.lit ['h', 'a', ' '], .grp 1 (.number), .lit [' ', 'm', 'e', 's', 'e', 's']], [.ref 1, .lit [' ', 'm', 'o', 'n', 't', 'h', ' ', 'a', 'g', 'o']]),
    (.seqs [.lit ['e', 'm', ' '], .grp 1 (.number), .lit [' ', 'a', 'n', 'o', 's']], [.lit ['i', 'n', ' '], .ref 1, .lit [' ', 'y', 'e', 'a', 'r']]),
    (.seqs [.lit ['e', 'm', ' '], .grp 1 (.number), .lit [' ', 'd', 'i', 'a', 's']], [.lit ['i', 'n', ' '], .ref 1, .lit [' ', 'd', 'a', 'y']]),
    (.seqs [.lit ['e', 'm', ' '], .grp 1 (.number), .lit [' ', 'h', 'o', 'r', 'a']], [.lit ['i', 'n', ' '], .ref 1, .lit [' ', 'h', 'o', 'u', 'r']]),
    (.seqs [.lit ['e', 'm', ' '], .grp 1 (.number), .lit [' ', 'm', 'i', 'n', 's']], [.lit ['i', 'n', ' '], .ref 1, .lit [' ', 'm', 'i', 'n', 'u', 't', 'e']]),
    (.seqs [.lit ['e', 'm', ' '], .grp 1 (.number), .lit [' ', 's', 'e', 'g', 's']], [.lit ['i', 'n', ' '], .ref 1, .lit [' ', 's', 'e', 'c', 'o', 'n', 'd']]),
    (.seqs [.lit ['h', 'a', ' '], .grp 1 (.number), .lit [' ', 'a', 'n', 'o', 's']], [.ref 1, .lit [' ', 'y', 'e', 'a', 'r', ' ', 'a', 'g', 'o']]),
    (.seqs [.lit ['h', 'a', ' '], .grp 1 (.number), .lit [' ', 'd', 'i', 'a', 's']], [.ref 1, .lit [' ', 'd', 'a', 'y', ' ', 'a', 'g', 'o']]),
    (.seqs [.lit ['h', 'a', ' '], .grp 1 (.number), .lit [' ', 'h', 'o', 'r', 'a']], [.ref 1, .lit [' ', 'h', 'o', 'u', 'r', ' ', 'a', 'g', 'o']]),
    (.seqs [.lit ['h', 'a', ' '], .grp 1 (.number), .lit [' ', 'm', 'i', 'n', 's']], [.ref 1, .lit [' ', 'm', 'i', 'n', 'u', 't', 'e', ' ', 'a', 'g', 'o']]),
    (.seqs [.lit ['e', 'm', ' '], .grp 1 (.number), .lit [' ', 'a', 'n', 'o']], [.lit ['i', 'n', ' '], .ref 1, .lit [' ', 'y', 'e', 'a', 'r']]),
    (.seqs [.lit ['e', 'm', ' '], .grp 1 (.number), .lit [' ', 'd', 'i', 'a']], [.lit ['i', 'n', ' '], .ref 1, .lit [' ', 'd', 'a', 'y']]),
    (.seqs [.lit ['e', 'm', ' '], .grp 1 (.number), .lit [' ', 'm', 'e', 's']], [.lit ['i', 'n', ' '], .ref 1, .lit [' ', 'm', 'o', 'n', 't', 'h']]),
    (.seqs [.lit ['e', 'm', ' '], .grp 1 (.number), .lit [' ', 'm', 'i', 'n']], [.lit ['i', 'n', ' '], .ref 1, .lit [' ', 'm', 'i', 'n', 'u', 't', 'e']]),
    (.seqs [.lit ['e', 'm', ' '], .grp 1 (.number), .lit [' ', 's', 'e', 'g']], [.lit ['i', 'n', ' '], .ref 1, .lit [' ', 's', 'e', 'c', 'o', 'n', 'd']]),
    (.seqs [.lit ['e', 'm', ' '], .grp 1 (.number), .lit [' ', 's', 'e', 'm']], [.lit ['i', 'n', ' '], .ref 1, .lit [' ', 'w', 'e', 'e', 'k']]),
    (.seqs [.lit ['h', 'a', ' '], .grp 1 (.number), .lit [' ', 'a', 'n', 'o']], [.ref 1, .lit [' ', 'y', 'e', 'a', 'r', ' ', 'a', 'g', 'o']]),
    (.seqs [.lit ['h', 'a', ' '], .grp 1 (.number), .lit [' ', 'd', 'i', 'a']], [.ref 1, .lit [' ', 'd', 'a', 'y', ' ', 'a', 'g', 'o']]),
    (.seqs [.lit ['h', 'a', ' '], .grp 1 (.number), .lit [' ', 'm', 'e', 's']], [.ref 1, .lit [' ', 'm', 'o', 'n', 't', 'h', ' ', 'a', 'g', 'o']]),
    (.seqs [.lit ['h', 'a', ' '], .grp 1 (.number), .lit [' ', 'm', 'i', 'n']], [.ref 1, .lit [' ', 'm', 'i', 'n', 'u', 't', 'e', ' ', 'a', 'g', 'o']]),
    (.seqs [.lit ['h', 'a', ' '], .grp 1 (.number), .lit [' ', 's', 'e', 'g']], [.ref 1, .lit [' ', 's', 'e', 'c', 'o', 'n', 'd', ' ', 'a', 'g', 'o']]),
    (.seqs [.lit ['h', 'a', ' '], .grp 1 (.number), .lit [' ', 's', 'e', 'm']], [.ref 1, .lit [' ', 'w', 'e', 'e', 'k', ' ', 'a', 'g', 'o']]),
    (.seqs [.lit ['e', 'm', ' '], .grp 1 (.number), .lit [' ', 'h']], [.lit ['i', 'n', ' '], .ref 1, .lit [' ', 'h', 'o', 'u', 'r']]),
    (.seqs [.lit ['h', 'a', ' '], .grp 1 (.number), .lit [' ', 'h']], [.ref 1, .lit [' ', 'h', 'o', 'u', 'r', ' ', 'a', 'g', 'o']])],
  rxCombined := some (.seqs [.grp 1 (.alts [.bos, .cls true [.letter, .mark, .digit], .lit ['_']]), .grp 2 (.alts [.seqs [.lit ['e', 'm', ' '], .number, .lit [' ', 's', 'e', 'g', 'u', 'n', 'd', 'o', 's']], .seqs [.lit ['h', 'a', ' '], .number, .lit [' ', 's', 'e', 'g', 'u', 'n', 'd', 'o', 's']], .seqs [.lit ['e', 'm', ' '], .number, .lit [' ', 'm', 'i', 'n', 'u', 't', 'o', 's']], .seqs [.lit ['e', 'm', ' '], .number, .lit [' ', 's', 'e', 'g', 'u', 'n', 'd', 'o']], .seqs [.lit ['e', 'm', ' '], .number, .lit [' ', 's', 'e', 'm', 'a', 'n', 'a', 's']], .seqs [.lit ['h', 'a', ' '], .number, .lit [' ', 'm', 'i', 'n', 'u', 't', 'o', 's']], .seqs [.lit ['h', 'a', ' '], .number, .lit [' ', 's', 'e', 'g', 'u', 'n', 'd', 'o']], .seqs [.lit ['h', 'a', ' '], .number, .lit [' ', 's', 'e', 'm', 'a', 'n', 'a', 's']], .seqs [.lit ['e', 'm', ' '], .number, .lit [' ', 'm', 'i', 'n', 'u', 't', 'o']], .seqs [.lit ['e', 'm', ' '], .number, .lit [' ', 's', 'e', 'm', 'a', 'n', 'a']], .seqs [.lit ['h', 'a', ' '], .number, .lit [' ', 'm', 'i', 'n', 'u', 't', 'o']], .seqs [.lit ['h', 'a', ' '], .number, .lit [' ', 's', 'e', 'm', 'a', 'n', 'a']], .seqs [.lit ['e', 'm', ' '], .number, .lit [' ', 'h', 'o', 'r', 'a', 's']], .seqs [.lit ['e', 'm', ' '], .number, .lit [' ', 'm', 'e', 's', 'e', 's']], .seqs [.lit ['h', 'a', ' '], .number, .lit [' ', 'h', 'o', 'r', 'a', 's']], .seqs [.lit ['h', 'a', ' '], .number, .lit [' ', 'm', 'e', 's', 'e', 's']], .seqs [.lit ['e', 'm', ' '], .number, .lit [' ', 'a', 'n', 'o', 's']], .seqs [.lit ['e', 'm', ' '], .number, .lit [' ', 'd', 'i', 'a', 's']], .seqs [.lit ['e', 'm', ' '], .number, .lit [' ', 'h', 'o', 'r', 'a']], .seqs [.lit ['e', 'm', ' '], .number, .lit [' ', 'm', 'i', 'n', 's']], .seqs [.lit ['e', 'm', ' '], .number, .lit [' ', 's', 'e', 'g', 's']], .seqs [.lit ['h', 'a', ' '], .number, .lit [' ', 'a', 'n', 'o', 's']], .seqs [.lit ['h', 'a', ' '], .number, .lit [' ', 'd', 'i', 'a', 's']], .seqs [.lit ['h', 'a', ' '], .number, .lit [' ', 'h', 'o', 'r', 'a']], .seqs [.lit ['h', 'a', ' '], .number, .lit [' ', 'm', 'i', 'n', 's']], .seqs [.lit ['e', 'm', ' '], .number, .lit [' ', 'a', 'n', 'o']], .seqs [.lit ['e', 'm', ' '], .number, .lit [' ', 'd', 'i', 'a']], .seqs [.lit ['e', 'm', ' '], .number, .lit [' ', 'm', 'e', 's']], .seqs [.lit ['e', 'm', ' '], .number, .lit [' ', 'm', 'i', 'n']], .seqs [.lit ['e', 'm', ' '], .number, .lit [' ', 's', 'e', 'g']], .seqs [.lit ['e', 'm', ' '], .number, .lit [' ', 's', 'e', 'm']], .seqs [.lit ['h', 'a', ' '], .number, .lit [' ', 'a', 'n', 'o']], .seqs [.lit ['h', 'a', ' '], .number, .lit [' ', 'd', 'i', 'a']], .seqs [.lit ['h', 'a', ' '], .number, .lit [' ', 'm', 'e', 's']], .seqs [.lit ['h', 'a', ' '], .number, .lit [' ', 'm', 'i', 'n']], .seqs [.lit ['h', 'a', ' '], .number, .lit [' ', 's', 'e', 'g']], .seqs [.lit ['h', 'a', ' '], .number, .lit [' ', 's', 'e', 'm']], .seqs [.lit ['e', 'm', ' '], .number, .lit [' ', 'h']], .seqs [.lit ['h', 'a', ' '], .number, .lit [' ', 'h']]]), .grp 3 (.alts [.eos, .cls true [.letter, .mark, .digit], .lit ['_']])], 3),
  rxExact := some (.seqs [.bos, .grp 1 (.alts [.seqs [.lit ['e', 'm', ' '], .number, .lit [' ', 's', 'e', 'g', 'u', 'n', 'd', 'o', 's']], .seqs [.lit ['h', 'a', ' '], .number, .lit [' ', 's', 'e', 'g', 'u', 'n', 'd', 'o', 's']], .seqs [.lit ['e', 'm', ' '], .number, .lit [' ', 'm', 'i', 'n', 'u', 't', 'o', 's']], .seqs [.lit ['e', 'm', ' '], .number, .lit [' ', 's', 'e', 'g', 'u', 'n', 'd', 'o']], .seqs [.lit ['e', 'm', ' '], .number, .lit [' ', 's', 'e', 'm', 'a', 'n', 'a', 's']], .seqs [.lit ['h', 'a', ' '], .number, .lit [' ', 'm', 'i', 'n', 'u', 't', 'o', 's']], .seqs [.lit ['h', 'a', ' '], .number, .lit [' ', 's', 'e', 'g', 'u', 'n', 'd', 'o']], .seqs [.lit ['h', 'a', ' '], .number, .lit [' ', 's', 'e', 'm', 'a', 'n', 'a', 's']], .seqs [.lit ['e', 'm', ' '], .number, .lit [' ', 'm', 'i', 'n', 'u', 't', 'o']], .seqs [.lit ['e', 'm', ' '], .number, .lit [' ', 's', 'e', 'm', 'a', 'n', 'a']], .seqs [.lit ['h', 'a', ' '], .number, .lit [' ', 'm', 'i', 'n', 'u', 't', 'o']], .seqs [.lit ['h', 'a', ' '], .number, .lit [' ', 's', 'e', 'm', 'a', 'n', 'a']], .seqs [.lit ['e', 'm', ' '], .number, .lit [' ', 'h', 'o', 'r', 'a', 's']], .seqs [.lit ['e', 'm', ' '], .number, .lit [' ', 'm', 'e', 's', 'e', 's']], .seqs [.lit ['h', 'a', ' '], .number, .lit [' ', 'h', 'o', 'r', 'a', 's']], .seqs [.lit ['h', 'a', ' '], .number, .lit [' ', 'm', 'e', 's', 'e', 's']], .seqs [.lit ['e', 'm', ' '], .number, .lit [' ', 'a', 'n', 'o', 's']], .seqs [.lit ['e', 'm', ' '], .number, .lit [' ', 'd', 'i', 'a', 's']], .seqs [.lit ['e', 'm', ' '], .number, .lit [' ', 'h', 'o', 'r', 'a']], .seqs [.lit ['e', 'm', ' '], .number, .lit [' ', 'm', 'i', 'n', 's']], .seqs [.lit ['e', 'm', ' '], .number, .lit [' ', 's', 'e', 'g', 's']], .seqs [.lit ['h', 'a', ' '], .number, .lit [' ', 'a', 'n', 'o', 's']], .seqs [.lit ['h', 'a', ' '], .number, .lit [' ', 'd', 'i', 'a', 's']], .seqs [.lit ['h', 'a', ' '], .number, .lit [' ', 'h', 'o', 'r', 'a']], .seqs [.lit ['h', 'a', ' '], .number, .lit [' ', 'm', 'i', 'n', 's']], .seqs [.lit ['e', 'm', ' '], .number, .lit [' ', 'a', 'n', 'o']], .seqs [.lit ['e', 'm', ' '], .number, .lit [' ', 'd', 'i', 'a']], .seqs [.lit ['e', 'm', ' '], .number, .lit [' ', 'm', 'e', 's']], .seqs [.lit ['e', 'm', ' '], .number, .lit [' ', 'm', 'i', 'n']], .seqs [.lit ['e', 'm', ' '], .number, .lit [' ', 's', 'e', 'g']], .seqs [.lit ['e', 'm', ' '], .number, .lit [' ', 's', 'e', 'm']], .seqs [.lit ['h', 'a', ' '], .number, .lit [' ', 'a', 'n', 'o']], .seqs [.lit ['h', 'a', ' '], .number, .lit [' ', 'd', 'i', 'a']], .seqs [.lit ['h', 'a', ' '], .number, .lit [' ', 'm', 'e', 's']], .seqs [.lit ['h', 'a', ' '], .number, .lit [' ', 'm', 'i', 'n']], .seqs [.lit ['h', 'a', ' '], .number, .lit [' ', 's', 'e', 'g']], .seqs [.lit ['h', 'a', ' '], .number, .lit [' ', 's', 'e', 'm']], .seqs [.lit ['e', 'm', ' '], .number, .lit [' ', 'h']], .seqs [.lit ['h', 'a', ' '], .number, .lit [' ', 'h']]]), .eos]),
  knownWords :=
   [['p', 'r', 'o', 'x', 'i', 'm', 'a', ' ', 's', 'e', 'm', 'a', 'n', 'a'], ['s', 'e', 'm', 'a', 'n', 'a', ' ', 'p', 'a', 's', 's', 'a', 'd', 'a'], ['s', 'e', 'g', 'u', 'n', 'd', 'a', '-', 'f', 'e', 'i', 'r', 'a'], ['q', 'u', 'a', 'r', 't', 'a', '-', 'f', 'e', 'i', 'r', 'a'], ['q', 'u', 'i', 'n', 't', 'a', '-', 'f', 'e', 'i', 'r', 'a'], ['a', 'n', 'o', ' ', 'p', 'a', 's', 's', 'a', 'd', 'o'], ['e', 's', 't', 'a', ' ', 's', 'e', 'm', 'a', 'n', 'a'], ['e', 's', 't', 'e', ' ', 'm', 'i', 'n', 'u', 't', 'o'], ['m', 'e', 's', ' ', 'p', 'a', 's', 's', 'a', 'd', 'o'], ['p', 'r', 'o', 'x', 'i', 'm', 'o', ' ', 'a', 'n', 'o'], ['p', 'r', 'o', 'x', 'i', 'm', 'o', ' ', 'm', 'e', 's'], ['s', 'e', 'x', 't', 'a', '-', 'f', 'e', 'i', 'r', 'a'], ['t', 'e', 'r', 'c', 'a', '-', 'f', 'e', 'i', 'r', 'a'], ['a', 'n', 't', 'e', 'o', 'n', 't', 'e', 'm'], ['e', 's', 't', 'a', ' ', 'h', 'o', 'r', 'a'], ['f', 'e', 'v', 'e', 'r', 'e', 'i', 'r', 'o'], ['s', 'e', 'p', 't', 'e', 'm', 'b', 'r', 'o'], ['d', 'e', 'z', 'e', 'm', 'b', 'r', 'o'], ['e', 's', 't', 'e', ' ', 'a', 'n', 'o'], ['e', 's', 't', 'e', ' ', 'm', 'e', 's'], ['n', 'o', 'v', 'e', 'm', 'b', 'r', 'o'], ['s', 'e', 'g', 'u', 'n', 'd', 'o', 's'], ['s', 'e', 't', 'e', 'm', 'b', 'r', 'o'], ['d', 'o', 'm', 'i', 'n', 'g', 'o'], ['j', 'a', 'n', 'e', 'i', 'r', 'o'], ['m', 'i', 'n', 'u', 't', 'o', 's'], ['o', 'u', 't', 'u', 'b', 'r', 'o'], ['s', 'e', 'g', 'u', 'n', 'd', 'a'], ['s', 'e', 'g', 'u', 'n', 'd', 'o'], ['s', 'e', 'm', 'a', 'n', 'a', 's'], ['a', 'g', 'o', 's', 't', 'o'], ['a', 'm', 'a', 'n', 'h', 'a'], ['m', 'i', 'n', 'u', 't', 'o'], ['q', 'u', 'a', 'r', 't', 'a'], ['q', 'u', 'i', 'n', 't', 'a'], ['s', 'a', 'b', 'a', 'd', 'o'], ['s', 'e', 'm', 'a', 'n', 'a'], ['a', 'b', 'r', 'i', 'l'], ['a', 'g', 'o', 'r', 'a'], ['a', 't', 'r', 'a', 's'], ['c', 'e', 'r', 'c', 'a'], ['h', 'o', 'r', 'a', 's'], ['j', 'u', 'l', 'h', 'o'], ['j', 'u', 'n', 'h', 'o'], ['m', 'a', 'r', 'c', 'o'], ['m', 'e', 's', 'e', 's'], ['o', 'n', 't', 'e', 'm'], ['s', 'e', 'x', 't', 'a'], ['t', 'e', 'r', 'c', 'a'], ['a', 'n', 'o', 's'], ['d', 'i', 'a', 's'], ['h', 'o', 'j', 'e'], ['h', 'o', 'r', 'a'], ['m', 'a', 'i', 'o'], ['a', 'b', 'r'], ['a', 'g', 'o'], ['a', 'n', 'o'], ['d', 'e', 'z'], ['d', 'i', 'a'], ['d', 'o', 'm'], ['f', 'e', 'v'], ['g', 'm', 't'], ['j', 'a', 'n'], ['j', 'u', 'l'], ['j', 'u', 'n'], ['m', 'a', 'i'], ['m', 'a', 'r'], ['m', 'e', 's'], ['m', 'i', 'n'], ['n', 'o', 'v'], ['o', 'u', 't'], ['q', 'u', 'a'], ['q', 'u', 'i'], ['s', 'a', 'b'], ['s', 'e', 'g'], ['s', 'e', 'm'], ['s', 'e', 't'], ['s', 'e', 'x'], ['t', 'e', 'r'], ['u', 't', 'c'], ['a', 'm'], ['a', 's'], ['d', 'e'], ['e', 'm'], ['h', 'a'], ['p', 'm'], [' '], ['\''], ['+'], [','], ['-'], ['.'], ['/'], [':'], [';'], ['@'], ['['], [']'], ['e'], ['h'], ['m'], ['s'], ['z'], ['|']] }

/-- internal/data/pt.go: `pt_AO_Locale`. -/
def pt_AOLang : LangData := { pt_AODict with
  relativeRegexes :=
   [(.seqs [.lit ['d', 'e', 'n', 't', 'r', 'o', ' ', 'd', 'e', ' '], .grp 1 (.number), .lit [' ', 's', 'e', 'g', 'u', 'n', 'd', 'o', 's']], [.lit ['i', 'n', ' '], .ref 1, .lit [' ', 's', 'e', 'c', 'o', 'n', 'd']]),
    (.seqs [.lit ['d', 'e', 'n', 't', 'r', 'o', ' ', 'd', 'e', ' '], .grp 1 (.number), .lit [' ', 'm', 'i', 'n', 'u', 't', 'o', 's']], [.lit ['i', 'n', ' '], .ref 1, .lit [' ', 'm', 'i', 'n', 'u', 't', 'e']]),
    (.seqs [.lit ['d', 'e', 'n', 't', 'r', 'o', ' ', 'd', 'e', ' '], .grp 1 (.number), .lit [' ', 's', 'e', 'g', 'u', 'n', 'd', 'o']], [.lit ['i', 'n', ' '], .ref 1, .lit [' ', 's', 'e', 'c', 'o', 'n', 'd']]),
    (.seqs [.lit ['d', 'e', 'n', 't', 'r', 'o', ' ', 'd', 'e', ' '], .grp 1 (.number), .lit [' ', 's', 'e', 'm', 'a', 'n', 'a', 's']], [.lit ['i', 'n', ' '], .ref 1, .lit [' ', 'w', 'e', 'e', 'k']]),
    (.seqs [.lit ['d', 'e', 'n', 't', 'r', 'o', ' ', 'd', 'e', ' '], .grp 1 (.number), .lit [' ', 'm', 'i', 'n', 'u', 't', 'o']], [.lit ['i', 'n', ' '], .ref 1, .lit [' ', 'm', 'i', 'n', 'u', 't', 'e']]),
    (.seqs [.lit ['d', 'e', 'n', 't', 'r', 'o', ' ', 'd', 'e', ' '], .grp 1 (.number), .lit [' ', 's', 'e', 'm', 'a', 'n', 'a']], [.lit ['i', 'n', ' '], .ref 1, .lit [' ', 'w', 'e', 'e', 'k']]),
    (.seqs [.lit ['d', 'e', 'n', 't', 'r', 'o', ' ', 'd', 'e', ' '], .grp 1 (.number), .lit [' ', 'h', 'o', 'r', 'a', 's']], [.lit ['i', 'n', ' '], .ref 1, .lit [' ', 'h', 'o', 'u', 'r']]),
    (.seqs [.lit ['d', 'e', 'n', 't', 'r', 'o', ' ', 'd', 'e', ' '], .grp 1 (.number), .lit [' ', 'm', 'e', 's', 'e', 's']], [.lit ['i', 'n', ' '], .ref 1, .lit [' ', 'm', 'o', 'n', 't', 'h']]),
    (.seqs [.lit ['d', 'e', 'n', 't', 'r', 'o', ' ', 'd', 'e', ' '], .grp 1 (.number), .lit [' ', 'a', 'n', 'o', 's']], [.lit ['i', 'n', ' '], .ref 1, .lit [' ', 'y', 'e', 'a', 'r']]),
    (.seqs [.lit ['d', 'e', 'n', 't', 'r', 'o', ' ', 'd', 'e', ' '], .grp 1 (.number), .lit [' ', 'd', 'i', 'a', 's']], [.lit ['i', 'n', ' '], .ref 1, .lit [' ', 'd', 'a', 'y']]),
    (.seqs [.lit ['d', 'e', 'n', 't', 'r', 'o', ' ', 'd', 'e', ' '], .grp 1 (.number), .lit [' ', 'h', 'o', 'r', 'a']], [.lit ['i', 'n', ' '], .ref 1, .lit [' ', 'h', 'o', 'u', 'r']]),
    (.seqs [.lit ['d', 'e', 'n', 't', 'r', 'o', ' ', 'd', 'e', ' '], .grp 1 (.number), .lit [' ', 'a', 'n', 'o']], [.lit ['i', 'n', ' '], .ref 1, .lit [' ', 'y', 'e', 'a', 'r']]),
    (.seqs [.lit ['d', 'e', 'n', 't', 'r', 'o', ' ', 'd', 'e', ' '], .grp 1 (.number), .lit [' ', 'd', 'i', 'a']], [.lit ['i', 'n', ' '], .ref 1, .lit [' ', 'd', 'a', 'y']]),
    (.seqs [.lit ['d', 'e', 'n', 't', 'r', 'o', ' ', 'd', 'e', ' '], .grp 1 (.number), .lit [' ', 'm', 'e', 's']], [.lit ['i', 'n', ' '], .ref 1, .lit [' ', 'm', 'o', 'n', 't', 'h']]),
    (.seqs [.lit ['d', 'e', 'n', 't', 'r', 'o', ' ', 'd', 'e', ' '], .grp 1 (.number), .lit [' ', 'm', 'i', 'n']], [.lit ['i', 'n', ' '], .ref 1, .lit [' ', 'm', 'i', 'n', 'u', 't', 'e']]),
    (.seqs [.lit ['d', 'e', 'n', 't', 'r', 'o', ' ', 'd', 'e', ' '], .grp 1 (.number), .lit [' ', 's', 'e', 'm']], [.lit ['i', 'n', ' '], .ref 1, .lit [' ', 'w', 'e', 'e', 'k']]),
    (.seqs [.lit ['d', 'e', 'n', 't', 'r', 'o', ' ', 'd', 'e', ' '], .grp 1 (.number), .lit [' ', 'h']], [.lit ['i', 'n', ' '], .ref 1, .lit [' ', 'h', 'o', 'u', 'r']]),
    (.seqs [.lit ['d', 'e', 'n', 't', 'r', 'o', ' ', 'd', 'e', ' '], .grp 1 (.number), .lit [' ', 's']], [.lit ['i', 'n', ' '], .ref 1, .lit [' ', 's', 'e', 'c', 'o', 'n', 'd']]),
    (.seqs [.lit ['h', 'a', ' '], .grp 1 (.number), .lit [' ', 's']], [.ref 1, .lit [' ', 's', 'e', 'c', 'o', 'n', 'd', ' ', 'a', 'g', 'o']])],
  rxCombined := some (.seqs [.grp 1 (.alts [.bos, .cls true [.letter, .mark, .digit], .lit ['_']]), .grp 2 (.alts [.seqs [.lit ['d', 'e', 'n', 't', 'r', 'o', ' ', 'd', 'e', ' '], .number, .lit [' ', 's', 'e', 'g', 'u', 'n', 'd', 'o', 's']], .seqs [.lit ['d', 'e', 'n', 't', 'r', 'o', ' ', 'd', 'e', ' '], .number, .lit [' ', 'm', 'i', 'n', 'u', 't', 'o', 's']], .seqs [.lit ['d', 'e', 'n', 't', 'r', 'o', ' ', 'd', 'e', ' '], .number, .lit [' ', 's', 'e', 'g', 'u', 'n', 'd', 'o']], .seqs [.lit ['d', 'e', 'n', 't', 'r', 'o', ' ', 'd', 'e', ' '], .number, .lit [' ', 's', 'e', 'm', 'a', 'n', 'a', 's']], .seqs [.lit ['d', 'e', 'n', 't', 'r', 'o', ' ', 'd', 'e', ' '], .number, .lit [' ', 'm', 'i', 'n', 'u', 't', 'o']], .seqs [.lit ['d', 'e', 'n', 't', 'r', 'o', ' ', 'd', 'e', ' '], .number, .lit [' ', 's', 'e', 'm', 'a', 'n', 'a']], .seqs [.lit ['d', 'e', 'n', 't', 'r', 'o', ' ', 'd', 'e', ' '], .number, .lit [' ', 'h', 'o', 'r', 'a', 's']], .seqs [.lit ['d', 'e', 'n', 't', 'r', 'o', ' ', 'd', 'e', ' '], .number, .lit [' ', 'm', 'e', 's', 'e', 's']], .seqs [.lit ['d', 'e', 'n', 't', 'r', 'o', ' ', 'd', 'e', ' '], .number, .lit [' ', 'a', 'n', 'o', 's']], .seqs [.lit ['d', 'e', 'n', 't', 'r', 'o', ' ', 'd', 'e', ' '], .number, .lit [' ', 'd', 'i', 'a', 's']], .seqs [.lit ['d', 'e', 'n', 't', 'r', 'o', ' ', 'd', 'e', ' '], .number, .lit [' ', 'h', 'o', 'r', 'a']], .seqs [.lit ['d', 'e', 'n', 't', 'r', 'o', ' ', 'd', 'e', ' '], .number, .lit [' ', 'a', 'n', 'o']], .seqs [.lit ['d', 'e', 'n', 't', 'r', 'o', ' ', 'd', 'e', ' '], .number, .lit [' ', 'd', 'i', 'a']], .seqs [.lit ['d', 'e', 'n', 't', 'r', 'o', ' ', 'd', 'e', ' '], .number, .lit [' ', 'm', 'e', 's']], .seqs [.lit ['d', 'e', 'n', 't', 'r', 'o', ' ', 'd', 'e', ' '], .number, .lit [' ', 'm', 'i', 'n']], .seqs [.lit ['d', 'e', 'n', 't', 'r', 'o', ' ', 'd', 'e', ' '], .number, .lit [' ', 's', 'e', 'm']], .seqs [.lit ['d', 'e', 'n', 't', 'r', 'o', ' ', 'd', 'e', ' '], .number, .lit [' ', 'h']], .seqs [.lit ['d', 'e', 'n', 't', 'r', 'o', ' ', 'd', 'e', ' '], .number, .lit [' ', 's']], .seqs [.lit ['e', 'm', ' '], .number, .lit [' ', 's', 'e', 'g', 'u', 'n', 'd', 'o', 's']], .seqs [.lit ['h', 'a', ' '], .number, .lit [' ', 's', 'e', 'g', 'u', 'n', 'd', 'o', 's']], .seqs [.lit ['e', 'm', ' '], .number, .lit [' ', 'm', 'i', 'n', 'u', 't', 'o', 's']], .seqs [.lit ['e', 'm', ' '], .number, .lit [' ', 's', 'e', 'g', 'u', 'n', 'd', 'o']], .seqs [.lit ['e', 'm', ' '], .number, .lit [' ', 's', 'e', 'm', 'a', 'n', 'a', 's']], .seqs [.lit ['h', 'a', ' '], .number, .lit [' ', 'm', 'i', 'n', 'u', 't', 'o', 's']], .seqs [.lit ['h', 'a', ' '], .number, .lit [' ', 's', 'e', 'g', 'u', 'n', 'd', 'o']], .seqs [.lit ['h', 'a', ' '], .number, .lit [' ', 's', 'e', 'm', 'a', 'n', 'a', 's']], .seqs [.lit ['e', 'm', ' '], .number, .lit [' ', 'm', 'i', 'n', 'u', 't', 'o']], .seqs [.lit ['e', 'm', ' '], .number, .lit [' ', 's', 'e', 'm', 'a', 'n', 'a']], .seqs [.lit ['h', 'a', ' '], .number, .lit [' ', 'm', 'i', 'n', 'u', 't', 'o']], .seqs [.lit ['h', 'a', ' '], .number, .lit [' ', 's', 'e', 'm', 'a', 'n', 'a']], .seqs [.lit ['e', 'm', ' '], .number, .lit [' ', 'h', 'o', 'r', 'a', 's']], .seqs [.lit ['e', 'm', ' '], .number, .lit [' ', 'm', 'e', 's', 'e', 's']], .seqs [.lit ['h', 'a', ' '], .number, .lit [' ', 'h', 'o', 'r', 'a', 's']], .seqs [.lit ['h', 'a', ' '], .number, .lit [' ', 'm', 'e', 's', 'e', 's']], .seqs [.lit ['e', 'm', ' '], .number, .lit [' ', 'a', 'n', 'o', 's']], .seqs [.lit ['e', 'm', ' '], .number, .lit [' ', 'd', 'i', 'a', 's']], .seqs [.lit ['e', 'm', ' '], .number, .lit [' ', 'h', 'o', 'r', 'a']], .seqs [.lit ['e', 'm', ' '], .number, .lit [' ', 'm', 'i', 'n', 's']], .seqs [.lit ['e', 'm', ' '], .number, .lit [' ', 's', 'e', 'g', 's']], .seqs [.lit ['h', 'a', ' '], .number, .lit [' ', 'a', 'n', 'o', 's']], .seqs [.lit ['h', 'a', ' '], .number, .lit [' ', 'd', 'i', 'a', 's']], .seqs [.lit ['h', 'a', ' '], .number, .lit [' ', 'h', 'o', 'r', 'a']], .seqs [.lit ['h', 'a', ' '], .number, .lit [' ', 'm', 'i', 'n', 's']], .seqs [.lit ['e', 'm', ' '], .number, .lit [' ', 'a', 'n', 'o']], .seqs [.lit ['e', 'm', ' '], .number, .lit [' ', 'd', 'i', 'a']], .seqs [.lit ['e', 'm', ' '], .number, .lit [' ', 'm', 'e', 's']], .seqs [.lit ['e', 'm', ' '], .number, .lit [' ', 'm', 'i', 'n']], .seqs [.lit ['e', 'm', ' '], .number, .lit [' ', 's', 'e', 'g']], .seqs [.lit ['e', 'm', ' '], .number, .lit [' ', 's', 'e', 'm']], .seqs [.lit ['h', 'a', ' '], .number, .lit [' ', 'a', 'n', 'o']], .seqs [.lit ['h', 'a', ' '], .number, .lit [' ', 'd', 'i', 'a']], .seqs [.lit ['h', 'a', ' '], .number, .lit [' ', 'm', 'e', 's']], .seqs [.lit ['h', 'a', ' '], .number, .lit [' ', 'm', 'i', 'n']], .seqs [.lit ['h', 'a', ' '], .number, .lit [' ', 's', 'e', 'g']], .seqs [.lit ['h', 'a', ' '], .number, .lit [' ', 's', 'e', 'm']], .seqs [.lit ['e', 'm', ' '], .number, .lit [' ', 'h']], .seqs [.lit ['h', 'a', ' '], .number, .lit [' ', 'h']], .seqs [.lit ['h', 'a', ' '], .number, .lit [' ', 's']]]), .grp 3 (.alts [.eos, .cls true [.letter, .mark, .digit], .lit ['_']])], 3),
  rxExact := some (.seqs [.bos, .grp 1 (.alts [.seqs [.lit ['d', 'e', 'n', 't', 'r', 'o', ' ', 'd', 'e', ' '], .number, .lit [' ', 's', 'e', 'g', 'u', 'n', 'd', 'o', 's']], .seqs [.lit ['d', 'e', 'n', 't', 'r', 'o', ' ', 'd', 'e', ' '], .number, .lit [' ', 'm', 'i', 'n', 'u', 't', 'o', 's']], .seqs [.lit ['d', 'e', 'n', 't', 'r', 'o', ' ', 'd', 'e', ' '], .number, .lit [' ', 's', 'e', 'g', 'u', 'n', 'd', 'o']], .seqs [.lit ['d', 'e', 'n', 't', 'r', 'o', ' ', 'd', 'e', ' '], .number, .lit [' ', 's', 'e', 'm', 'a', 'n', 'a', 's']], .seqs [.lit ['d', 'e', 'n', 't', 'r', 'o', ' ', 'd', 'e', ' '], .number, .lit [' ', 'm', 'i', 'n', 'u', 't', 'o']], .seqs [.lit ['d', 'e', 'n', 't', 'r', 'o', ' ', 'd', 'e', ' '], .number, .lit [' ', 's', 'e', 'm', 'a', 'n', 'a']], .seqs [.lit ['d', 'e', 'n', 't', 'r', 'o', ' ', 'd', 'e', ' '], .number, .lit [' ', 'h', 'o', 'r', 'a', 's']], .seqs [.lit ['d', 'e', 'n', 't', 'r', 'o', ' ', 'd', 'e', ' '], .number, .lit [' ', 'm', 'e', 's', 'e', 's']], .seqs [.lit ['d', 'e', 'n', 't', 'r', 'o', ' ', 'd', 'e', ' '], .number, .lit [' ', 'a', 'n', 'o', 's']], .seqs [.lit ['d', 'e', 'n', 't', 'r', 'o', ' ', 'd', 'e', ' '], .number, .lit [' ', 'd', 'i', 'a', 's']], .seqs [.lit ['d', 'e', 'n', 't', 'r', 'o', ' ', 'd', 'e', ' '], .number, .lit [' ', 'h', 'o', 'r', 'a']], .seqs [.lit ['d', 'e', 'n', 't', 'r', 'o', ' ', 'd', 'e', ' '], .number, .lit [' ', 'a', 'n', 'o']], .seqs [.lit ['d', 'e', 'n', 't', 'r', 'o', ' ', 'd', 'e', ' '], .number, .lit [' ', 'd', 'i', 'a']], .seqs [.lit ['d', 'e', 'n', 't', 'r', 'o', ' ', 'd', 'e', ' '], .number, .lit [' ', 'm', 'e', 's']], .seqs [.lit ['d', 'e', 'n', 't', 'r', 'o', ' ', 'd', 'e', ' '], .number, .lit [' ', 'm', 'i', 'n']], .seqs [.lit ['d', 'e', 'n', 't', 'r', 'o', ' ', 'd', 'e', ' '], .number, .lit [' ', 's', 'e', 'm']], .seqs [.lit ['d', 'e', 'n', 't', 'r', 'o', ' ', 'd', 'e', ' '], .number, .lit [' ', 'h']], .seqs [.lit ['d', 'e', 'n', 't', 'r', 'o', ' ', 'd', 'e', ' '], .number, .lit [' ', 's']], .seqs [.lit ['e', 'm', ' '], .number, .lit [' ', 's', 'e', 'g', 'u', 'n', 'd', 'o', 's']], .seqs [.lit ['h', 'a', ' '], .number, .lit [' ', 's', 'e', 'g', 'u', 'n', 'd', 'o', 's']], .seqs [.lit ['e', 'm', ' '], .number, .lit [' ', 'm', 'i', 'n', 'u', 't', 'o', 's']], .seqs [.lit ['e', 'm', ' '], .number, .lit [' ', 's', 'e', 'g', 'u', 'n', 'd', 'o']], .seqs [.lit ['e', 'm', ' '], .number, .lit [' ', 's', 'e', 'm', 'a', 'n', 'a', 's']], .seqs [.lit ['h', 'a', ' '], .number, .lit [' ', 'm', 'i', 'n', 'u', 't', 'o', 's']], .seqs [.lit ['h', 'a', ' '], .number, .lit [' ', 's', 'e', 'g', 'u', 'n', 'd', 'o']], .seqs [.lit ['h', 'a', ' '], .number, .lit [' ', 's', 'e', 'm', 'a', 'n', 'a', 's']], .seqs [.lit ['e', 'm', ' '], .number, .lit [' ', 'm', 'i', 'n', 'u', 't', 'o']], .seqs [.lit ['e', 'm', ' '], .number, .lit [' ', 's', 'e', 'm', 'a', 'n', 'a']], .seqs [.lit ['h', 'a', ' '], .number, .lit [' ', 'm', 'i', 'n', 'u', 't', 'o']], .seqs [.lit ['h', 'a', ' '], .number, .lit [' ', 's', 'e', 'm', 'a', 'n', 'a']], .seqs [.lit ['e', 'm', ' '], .number, .lit [' ', 'h', 'o', 'r', 'a', 's']], .seqs [.lit ['e', 'm', ' '], .number, .lit [' ', 'm', 'e', 's', 'e', 's']], .seqs [.lit ['h', 'a', ' '], .number, .lit [' ', 'h', 'o', 'r', 'a', 's']], .seqs [.lit ['h', 'a', ' '], .number, .lit [' ', 'm', 'e', 's', 'e', 's']], .seqs [.lit ['e', 'm', ' '], .number, .lit [' ', 'a', 'n', 'o', 's']], .seqs [.lit ['e', 'm', ' '], .number, .lit [' ', 'd', 'i', 'a', 's']], .seqs [.lit ['e', 'm', ' '], .number, .lit [' ', 'h', 'o', 'r', 'a']], .seqs [.lit ['e', 'm', ' '], .number, .lit [' ', 'm', 'i', 'n', 's']], .seqs [.lit ['e', 'm', ' '], .number, .lit [' ', 's', 'e', 'g', 's']], .seqs [.lit ['h', 'a', ' '], .number, .lit [' ', 'a', 'n', 'o', 's']], .seqs [.lit ['h', 'a', ' '], .number, .lit [' ', 'd', 'i', 'a', 's']], .seqs [.lit ['h', 'a', ' '], .number, .lit [' ', 'h', 'o', 'r', 'a']], .seqs [.lit ['h', 'a', ' '], .number, .lit [' ', 'm', 'i', 'n', 's']], .seqs [.lit ['e', 'm', ' '], .number, .lit [' ', 'a', 'n', 'o']], .seqs [.lit ['e', 'm', ' '], .number, .lit [' ', 'd', 'i', 'a']], .seqs [.lit ['e', 'm', ' '], .number, .lit [' ', 'm', 'e', 's']], .seqs [.lit ['e', 'm', ' '], .number, .lit [' ', 'm', 'i', 'n']], .seqs [.lit ['e', 'm', ' '], .number, .lit [' ', 's', 'e', 'g']], .seqs [.lit ['e', 'm', ' '], .number, .lit [' ', 's', 'e', 'm']], .seqs [.lit ['h', 'a', ' '], .number, .lit [' ', 'a', 'n', 'o']], .seqs [.lit ['h', 'a', ' '], .number, .lit [' ', 'd', 'i', 'a']], .seqs [.lit ['h', 'a', ' '], .number, .lit [' ', 'm', 'e', 's']], .seqs [.lit ['h', 'a', ' '], .number, .lit [' ', 'm', 'i', 'n']], .seqs [.lit ['h', 'a', ' '], .number, .lit [' ', 's', 'e', 'g']], .seqs [.lit ['h', 'a', ' '], .number, .lit [' ', 's', 'e', 'm']], .seqs [.lit ['e', 'm', ' '], .number, .lit [' ', 'h']], .seqs [.lit ['h', 'a', ' '], .number, .lit [' ', 'h']], .seqs [.lit ['h', 'a', ' '], .number, .lit [' ', 's']]]), .eos]),
  knownWords :=
   [['p', 'r', 'o', 'x', 'i', 'm', 'a', ' ', 's', 'e', 'm', 'a', 'n', 'a'], ['s', 'e', 'm', 'a', 'n', 'a', ' ', 'p', 'a', 's', 's', 'a', 'd', 'a'], ['s', 'e', 'g', 'u', 'n', 'd', 'a', '-', 'f', 'e', 'i', 'r', 'a'], ['q', 'u', 'a', 'r', 't', 'a', '-', 'f', 'e', 'i', 'r', 'a'], ['q', 'u', 'i', 'n', 't', 'a', '-', 'f', 'e', 'i', 'r', 'a'], ['a', 'n', 'o', ' ', 'p', 'a', 's', 's', 'a', 'd', 'o'], ['e', 's', 't', 'a', ' ', 's', 'e', 'm', 'a', 'n', 'a'], ['e', 's', 't', 'e', ' ', 'm', 'i', 'n', 'u', 't', 'o'], ['m', 'e', 's', ' ', 'p', 'a', 's', 's', 'a', 'd', 'o'], ['p', 'r', 'o', 'x', 'i', 'm', 'o', ' ', 'a', 'n', 'o'], ['p', 'r', 'o', 'x', 'i', 'm', 'o', ' ', 'm', 'e', 's'], ['s', 'e', 'x', 't', 'a', '-', 'f', 'e', 'i', 'r', 'a'], ['t', 'e', 'r', 'c', 'a', '-', 'f', 'e', 'i', 'r', 'a'], ['a', 'n', 't', 'e', 'o', 'n', 't', 'e', 'm'], ['e', 's', 't', 'a', ' ', 'h', 'o', 'r', 'a'], ['f', 'e', 'v', 'e', 'r', 'e', 'i', 'r', 'o'], ['s', 'e', 'p', 't', 'e', 'm', 'b', 'r', 'o'], ['d', 'a', ' ', 'm', 'a', 'n', 'h', 'a'], ['d', 'a', ' ', 't', 'a', 'r', 'd', 'e'], ['d', 'e', 'z', 'e', 'm', 'b', 'r', 'o'], ['e', 's', 't', 'e', ' ', 'a', 'n', 'o'], ['e', 's', 't', 'e', ' ', 'm', 'e', 's'], ['n', 'o', 'v', 'e', 'm', 'b', 'r', 'o'], ['s', 'e', 'g', 'u', 'n', 'd', 'o', 's'], ['s', 'e', 't', 'e', 'm', 'b', 'r', 'o'], ['d', 'o', 'm', 'i', 'n', 'g', 'o'], ['j', 'a', 'n', 'e', 'i', 'r', 'o'], ['m', 'i', 'n', 'u', 't', 'o', 's'], ['o', 'u', 't', 'u', 'b', 'r', 'o'], ['s', 'e', 'g', 'u', 'n', 'd', 'a'], ['s', 'e', 'g', 'u', 'n', 'd', 'o'], ['s', 'e', 'm', 'a', 'n', 'a', 's'], ['a', 'g', 'o', 's', 't', 'o'], ['a', 'm', 'a', 'n', 'h', 'a'], ['m', 'i', 'n', 'u', 't', 'o'], ['q', 'u', 'a', 'r', 't', 'a'], ['q', 'u', 'i', 'n', 't', 'a'], ['s', 'a', 'b', 'a', 'd', 'o'], ['s', 'e', 'm', 'a', 'n', 'a'], ['a', 'b', 'r', 'i', 'l'], ['a', 'g', 'o', 'r', 'a'], ['a', 't', 'r', 'a', 's'], ['c', 'e', 'r', 'c', 'a'], ['h', 'o', 'r', 'a', 's'], ['j', 'u', 'l', 'h', 'o'], ['j', 'u', 'n', 'h', 'o'], ['m', 'a', 'n', 'h', 'a'], ['m', 'a', 'r', 'c', 'o'], ['m', 'e', 's', 'e', 's'], ['o', 'n', 't', 'e', 'm'], ['s', 'e', 'x', 't', 'a'], ['t', 'a', 'r', 'd', 'e'], ['t', 'e', 'r', 'c', 'a'], ['a', 'n', 'o', 's'], ['d', 'i', 'a', 's'], ['h', 'o', 'j', 'e'], ['h', 'o', 'r', 'a'], ['m', 'a', 'i', 'o'], ['a', 'b', 'r'], ['a', 'g', 'o'], ['a', 'n', 'o'], ['d', 'e', 'z'], ['d', 'i', 'a'], ['d', 'o', 'm'], ['f', 'e', 'v'], ['g', 'm', 't'], ['j', 'a', 'n'], ['j', 'u', 'l'], ['j', 'u', 'n'], ['m', 'a', 'i'], ['m', 'a', 'r'], ['m', 'e', 's'], ['m', 'i', 'n'], ['n', 'o', 'v'], ['o', 'u', 't'], ['q', 'u', 'a'], ['q', 'u', 'i'], ['s', 'a', 'b'], ['s', 'e', 'g'], ['s', 'e', 'm'], ['s', 'e', 't'], ['s', 'e', 'x'], ['t', 'e', 'r'], ['u', 't', 'c'], ['a', 'm'], ['a', 's'], ['d', 'e'], ['e', 'm'], ['h', 'a'], ['p', 'm'], [' '], ['\''], ['+'], [','], ['-'], ['.'], ['/'], [':'], [';'], ['@'], ['['], [']'], ['e'], ['h'], ['m'], ['s'], ['z'], ['|']] }

/-- internal/data/pt.go: `pt_CH_Locale`. -/
def pt_CHLang : LangData := { pt_CHDict with
  relativeRegexes :=
   [(.seqs [.lit ['d', 'e', 'n', 't', 'r', 'o', ' ', 'd', 'e', ' '], .grp 1 (.number), .lit [' ', 's', 'e', 'g', 'u', 'n', 'd', 'o', 's']], [.lit ['i', 'n', ' '], .ref 1, .lit [' ', 's', 'e', 'c', 'o', 'n', 'd']]),
    (.seqs [.lit ['d', 'e', 'n', 't', 'r', 'o', ' ', 'd', 'e', ' '], .grp 1 (.number), .lit [' ', 'm', 'i', 'n', 'u', 't', 'o', 's']], [.lit ['i', 'n', ' '], .ref 1, .lit [' ', 'm', 'i', 'n', 'u', 't', 'e']]),
    (.seqs [.lit ['d', 'e', 'n', 't', 'r', 'o', ' ', 'd', 'e', ' '], .grp 1 (.number), .lit [' ', 's', 'e', 'g', 'u', 'n', 'd', 'o']], [.lit ['i', 'n', ' '], .ref 1, .lit [' ', 's', 'e', 'c', 'o', 'n', 'd']]),
    (.seqs [.lit ['d', 'e', 'n', 't', 'r', 'o', ' ', 'd', 'e', ' '], .grp 1 (.number), .lit [' ', 's', 'e', 'm', 'a', 'n', 'a', 's']], [.lit ['i', 'n', ' '], .ref 1, .lit [' ', 'w', 'e', 'e', 'k']]),
    (.seqs [.lit ['d', 'e', 'n', 't', 'r', 'o', ' ', 'd', 'e', ' '], .grp 1 (.number), .lit [' ', 'm', 'i', 'n', 'u', 't', 'o']], [.lit ['i', 'n', ' '], .ref 1, .lit [' ', 'm', 'i', 'n', 'u', 't', 'e']]),
    (.seqs [.lit ['d', 'e', 'n', 't', 'r', 'o', ' ', 'd', 'e', ' '], .grp 1 (.number), .lit [' ', 's', 'e', 'm', 'a', 'n', 'a']], [.lit ['i', 'n', ' '], .ref 1, .lit [' ', 'w', 'e', 'e', 'k']]),
    (.seqs [.lit ['d', 'e', 'n', 't', 'r', 'o', ' ', 'd', 'e', ' '], .grp 1 (.number), .lit [' ', 'h', 'o', 'r', 'a', 's']], [.lit ['i', 'n', ' '], .ref 1, .lit [' ', 'h', 'o', 'u', 'r']]),
    (.seqs [.lit ['d', 'e', 'n', 't', 'r', 'o', ' ', 'd', 'e', ' '], .grp 1 (.number), .lit [' ', 'm', 'e', 's', 'e', 's']], [.lit ['i', 'n', ' '], .ref 1, .lit [' ', 'm', 'o', 'n', 't', 'h']]),
    (.seqs [.lit ['d', 'e', 'n', 't', 'r', 'o', ' ', 'd', 'e', ' '], .grp 1 (.number), .lit [' ', 'a', 'n', 'o', 's']], [.lit ['i', 'n', ' '], .ref 1, .lit [' ', 'y', 'e', 'a', 'r']]),
    (.seqs [.lit ['d', 'e', 'n', 't', 'r', 'o', ' ', 'd', 'e', ' '], .grp 1 (.number), .lit [' ', 'd', 'i', 'a', 's']], [.lit ['i', 'n', ' '], .ref 1, .lit [' ', 'd', 'a', 'y']]),
    (.seqs [.lit ['d', 'e', 'n', 't', 'r', 'o', ' ', 'd', 'e', ' '], .grp 1 (.number), .lit [' ', 'h', 'o', 'r', 'a']], [.lit ['i', 'n', ' '], .ref 1, .lit [' ', 'h', 'o', 'u', 'r']]),
    (.seqs [.lit ['d', 'e', 'n', 't', 'r', 'o', ' ', 'd', 'e', ' '], .grp 1 (.number), .lit [' ', 'a', 'n', 'o']], [.lit ['i', 'n', ' '], .ref 1, .lit [' ', 'y', 'e', 'a', 'r']]),
    (.seqs [.lit ['d', 'e', 'n', 't', 'r', 'o', ' ', 'd', 'e', ' '], .grp 1 (.number), .lit [' ', 'd', 'i', 'a']], [.lit ['i', 'n', ' '], .ref 1, .lit [' ', 'd', 'a', 'y']]),
    (.seqs [.lit ['d', 'e', 'n', 't', 'r', 'o', ' ', 'd', 'e', ' '], .grp 1 (.number), .lit [' ', 'm', 'e', 's']], [.lit ['i', 'n', ' '], .ref 1, .lit [' ', 'm', 'o', 'n', 't', 'h']]),
    (.seqs [.lit ['d', 'e', 'n', 't', 'r', 'o', ' ', 'd', 'e', ' '], .grp 1 (.number), .lit [' ', 'm', 'i', 'n']], [.lit ['i', 'n', ' '], .ref 1, .lit [' ', 'm', 'i', 'n', 'u', 't', 'e']]),
    (.seqs [.lit ['d', 'e', 'n', 't', 'r', 'o', ' ', 'd', 'e', ' '], .grp 1 (.number), .lit [' ', 's', 'e', 'm']], [.lit ['i', 'n', ' '], .ref 1, .lit [' ', 'w', 'e', 'e', 'k']]),
    (.seqs [.lit ['d', 'e', 'n', 't', 'r', 'o', ' ', 'd', 'e', ' '], .grp 1 (.number), .lit [' ', 'h']], [.lit ['i', 'n', ' '], .ref 1, .lit [' ', 'h', 'o', 'u', 'r']]),
    (.seqs [.lit ['d', 'e', 'n', 't', 'r', 'o', ' ', 'd', 'e', ' '], .grp 1 (.number), .lit [' ', 's']], [.lit ['i', 'n', ' '], .ref 1, .lit [' ', 's', 'e', 'c', 'o', 'n', 'd']]),
    (.seqs [.lit ['h', 'a', ' '], .grp 1 (.number), .lit [' ', 's']], [.ref 1, .lit [' ', 's', 'e', 'c', 'o', 'n', 'd', ' ', 'a', 'g', 'o']])],
  rxCombined := some (.seqs [.grp 1 (.alts [.bos, .cls true [.letter, .mark, .digit], .lit ['_']]), .grp 2 (.alts [.seqs [.lit ['d', 'e', 'n', 't', 'r', 'o', ' ', 'd', 'e', ' '], .number, .lit [' ', 's', 'e', 'g', 'u', 'n', 'd', 'o', 's']], .seqs [.lit ['d', 'e', 'n', 't', 'r', 'o', ' ', 'd', 'e', ' '], .number, .lit [' ', 'm', 'i', 'n', 'u', 't', 'o', 's']], .seqs [.lit ['d', 'e', 'n', 't', 'r', 'o', ' ', 'd', 'e', ' '], .number, .lit [' ', 's', 'e', 'g', 'u', 'n', 'd', 'o']], .seqs [.lit ['d', 'e', 'n', 't', 'r', 'o', ' ', 'd', 'e', ' '], .number, .lit [' ', 's', 'e', 'm', 'a', 'n', 'a', 's']], .seqs [.lit ['d', 'e', 'n', 't', 'r', 'o', ' ', 'd', 'e', ' '], .number, .lit [' ', 'm', 'i', 'n', 'u', 't', 'o']], .seqs [.lit ['d', 'e', 'n', 't', 'r', 'o', ' ', 'd', 'e', ' '], .number, .lit [' ', 's', 'e', 'm', 'a', 'n', 'a']], .seqs [.lit ['d', 'e', 'n', 't', 'r', 'o', ' ', 'd', 'e', ' '], .number, .lit [' ', 'h', 'o', 'r', 'a', 's']], .seqs [.lit ['d', 'e', 'n', 't', 'r', 'o', ' ', 'd', 'e', ' '], .number, .lit [' ', 'm', 'e', 's', 'e', 's']], .seqs [.lit ['d', 'e', 'n', 't', 'r', 'o', ' ', 'd', 'e', ' '], .number, .lit [' ', 'a', 'n', 'o', 's']], .seqs [.lit ['d', 'e', 'n', 't', 'r', 'o', ' ', 'd', 'e', ' '], .number, .lit [' ', 'd', 'i', 'a', 's']], .seqs [.lit ['d', 'e', 'n', 't', 'r', 'o', ' ', 'd', 'e', ' '], .number, .lit [' ', 'h', 'o', 'r', 'a']], .seqs [.lit ['d', 'e', 'n', 't', 'r', 'o', ' ', 'd', 'e', ' '], .number, .lit [' ', 'a', 'n', 'o']], .seqs [.lit ['d', 'e', 'n', 't', 'r', 'o', ' ', 'd', 'e', ' '], .number, .lit [' ', 'd', 'i', 'a']], .seqs [.lit ['d', 'e', 'n', 't', 'r', 'o', ' ', 'd', 'e', ' '], .number, .lit [' ', 'm', 'e', 's']], .seqs [.lit ['d', 'e', 'n', 't', 'r', 'o', ' ', 'd', 'e', ' '], .number, .lit [' ', 'm', 'i', 'n']], .seqs [.lit ['d', 'e', 'n', 't', 'r', 'o', ' ', 'd', 'e', ' '], .number, .lit [' ', 's', 'e', 'm']], .seqs [.lit ['d', 'e', 'n', 't', 'r', 'o', ' ', 'd', 'e', ' '], .number, .lit [' ', 'h']], .seqs [.lit ['d', 'e', 'n', 't', 'r', 'o', ' ', 'd', 'e', ' '], .number, .lit [' ', 's']], .seqs [.lit ['e', 'm', ' '], .number, .lit [' ', 's', 'e', 'g', 'u', 'n', 'd', 'o', 's']], .seqs [.lit ['h', 'a', ' '], .number, .lit [' ', 's', 'e', 'g', 'u', 'n', 'd', 'o', 's']], .seqs [.lit ['e', 'm', ' '], .number, .lit [' ', 'm', 'i', 'n', 'u', 't', 'o', 's']], .seqs [.lit ['e', 'm', ' '], .number, .lit [' ', 's', 'e', 'g', 'u', 'n', 'd', 'o']], .seqs [.lit ['e', 'm', ' '], .number, .lit [' ', 's', 'e', 'm', 'a', 'n', 'a', 's']], .seqs [.lit ['h', 'a', ' '], .number, .lit [' ', 'm', 'i', 'n', 'u', 't', 'o', 's']], .seqs [.lit ['h', 'a', ' '], .number, .lit [' ', 's', 'e', 'g', 'u', 'n', 'd', 'o']], .seqs [.lit ['h', 'a', ' '], .number, .lit [' ', 's', 'e', 'm', 'a', 'n', 'a', 's']], .seqs [.lit ['e', 'm', ' '], .number, .lit [' ', 'm', 'i', 'n', 'u', 't', 'o']], .seqs [.lit ['e', 'm', ' '], .number, .lit [' ', 's', 'e', 'm', 'a', 'n', 'a']], .seqs [.lit ['h', 'a', ' '], .number, .lit [' ', 'm', 'i', 'n', 'u', 't', 'o']], .seqs [.lit ['h', 'a', ' '], .number, .lit [' ', 's', 'e', 'm', 'a', 'n', 'a']], .seqs [.lit ['e', 'm', ' '], .number, .lit [' ', 'h', 'o', 'r', 'a', 's']], .seqs [.lit ['e', 'm', ' '], .number, .lit [' ', 'm', 'e', 's', 'e', 's']], .seqs [.lit ['h', 'a', ' '], .number, .lit [' ', 'h', 'o', 'r', 'a', 's']], .seqs [.lit ['h', 'a', ' '], .number, .lit [' ', 'm', 'e', 's', 'e', 's']], .seqs [.lit ['e', 'm', ' '], .number, .lit [' ', 'a', 'n', 'o', 's']], .seqs [.lit ['e', 'm', ' '], .number, .lit [' ', 'd', 'i', 'a', 's']], .seqs [.lit ['e', 'm', ' '], .number, .lit [' ', 'h', 'o', 'r', 'a']], .seqs [.lit ['e', 'm', ' '], .number, .lit [' ', 'm', 'i', 'n', 's']], .seqs [.lit ['e', 'm', ' '], .number, .lit [' ', 's', 'e', 'g', 's']], .seqs [.lit ['h', 'a', ' '], .number, .lit [' ', 'a', 'n', 'o', 's']], .seqs [.lit ['h', 'a', ' '], .number, .lit [' ', 'd', 'i', 'a', 's']], .seqs [.lit ['h', 'a', ' '], .number, .lit [' ', 'h', 'o', 'r', 'a']], .seqs [.lit ['h', 'a', ' '], .number, .lit [' ', 'm', 'i', 'n', 's']], .seqs [.lit ['e', 'm', ' '], .number, .lit [' ', 'a', 'n', 'o']], .seqs [.lit ['e', 'm', ' '], .number, .lit [' ', 'd', 'i', 'a']], .seqs [.lit ['e', 'm', ' '], .number, .lit [' ', 'm', 'e', 's']], .seqs [.lit ['e', 'm', ' '], .number, .lit [' ', 'm', 'i', 'n']], .seqs [.lit ['e', 'm', ' '], .number, .lit [' ', 's', 'e', 'g']], .seqs [.lit ['e', 'm', ' '], .number, .lit [' ', 's', 'e', 'm']], .seqs [.lit ['h', 'a', ' '], .number, .lit [' ', 'a', 'n', 'o']], .seqs [.lit ['h', 'a', ' '], .number, .lit [' ', 'd', 'i', 'a']], .seqs [.lit ['h', 'a', ' '], .number, .lit [' ', 'm', 'e', 's']], .seqs [.lit ['h', 'a', ' '], .number, .lit [' ', 'm', 'i', 'n']], .seqs [.lit ['h', 'a', ' '], .number, .lit [' ', 's', 'e', 'g']], .seqs [.lit ['h', 'a', ' '], .number, .lit [' ', 's', 'e', 'm']], .seqs [.lit ['e', 'm', ' '], .number, .lit [' ', 'h']], .seqs [.lit ['h', 'a', ' '], .number, .lit [' ', 'h']], .seqs [.lit ['h', 'a', ' '], .number, .lit [' ', 's']]]), .grp 3 (.alts [.eos, .cls true [.letter, .mark, .digit], .lit ['_']])], 3),
  rxExact := some (.seqs [.bos, .grp 1 (.alts [.seqs [.lit ['d', 'e', 'n', 't', 'r', 'o', ' ', 'd', 'e', ' '], .number, .lit [' ', 's', 'e', 'g', 'u', 'n', 'd', 'o', 's']], .seqs [.lit ['d', 'e', 'n', 't', 'r', 'o', ' ', 'd', 'e', ' '], .number, .lit [' ', 'm', 'i', 'n', 'u', 't', 'o', 's']], .seqs [.lit ['d', 'e', 'n', 't', 'r', 'o', ' ', 'd', 'e', ' '], .number, .lit [' ', 's', 'e', 'g', 'u', 'n', 'd', 'o']], .seqs [.lit ['d', 'e', 'n', 't', 'r', 'o', ' ', 'd', 'e', ' '], .number, .lit [' ', 's', 'e', 'm', 'a', 'n', 'a', 's']], .seqs [.lit ['d', 'e', 'n', 't', 'r', 'o', ' ', 'd', 'e', ' '], .number, .lit [' ', 'm', 'i', 'n', 'u', 't', 'o']], .seqs [.lit ['d', 'e', 'n', 't', 'r', 'o', ' ', 'd', 'e', ' '], .number, .lit [' ', 's', 'e', 'm', 'a', 'n', 'a']], .seqs [.lit ['d', 'e', 'n', 't', 'r', 'o', ' ', 'd', 'e', ' '], .number, .lit [' ', 'h', 'o', 'r', 'a', 's']], .seqs [.lit ['d', 'e', 'n', 't', 'r', 'o', ' ', 'd', 'e', ' '], .number, .lit [' ', 'm', 'e', 's', 'e', 's']], .seqs [.lit ['d', 'e', 'n', 't', 'r', 'o', ' ', 'd', 'e', ' '], .number, .lit [' ', 'a', 'n', 'o', 's']], .seqs [.lit ['d', 'e', 'n', 't', 'r', 'o', ' ', 'd', 'e', ' '], .number, .lit [' ', 'd', 'i', 'a', 's']], .seqs [.lit ['d', 'e', 'n', 't', 'r', 'o', ' ', 'd', 'e', ' '], .number, .lit [' ', 'h', 'o', 'r', 'a']], .seqs [.lit ['d', 'e', 'n', 't', 'r', 'o', ' ', 'd', 'e', ' '], .number, .lit [' ', 'a', 'n', 'o']], .seqs [.lit ['d', 'e', 'n', 't', 'r', 'o', ' ', 'd', 'e', ' '], .number, .lit [' ', 'd', 'i', 'a']], .seqs [.lit ['d', 'e', 'n', 't', 'r', 'o', ' ', 'd', 'e', ' '], .number, .lit [' ', 'm', 'e', 's']], .seqs [.lit ['d', 'e', 'n', 't', 'r', 'o', ' ', 'd', 'e', ' '], .number, .lit [' ', 'm', 'i', 'n']], .seqs [.lit ['d', 'e', 'n', 't', 'r', 'o', ' ', 'd', 'e', ' '], .number, .lit [' ', 's', 'e', 'm']], .seqs [.lit ['d', 'e', 'n', 't', 'r', 'o', ' ', 'd', 'e', ' '], .number, .lit [' ', 'h']], .seqs [.lit ['d', 'e', 'n', 't', 'r', 'o', ' ', 'd', 'e', ' '], .number, .lit [' ', 's']], .seqs [.lit ['e', 'm', ' '], .number, .lit [' ', 's', 'e', 'g', 'u', 'n', 'd', 'o', 's']], .seqs [.lit ['h', 'a', ' '], .number, .lit [' ', 's', 'e', 'g', 'u', 'n', 'd', 'o', 's']], .seqs [.lit ['e', 'm', ' '], .number, .lit [' ', 'm', 'i', 'n', 'u', 't', 'o', 's']], .seqs [.lit ['e', 'm', ' '], .number, .lit [' ', 's', 'e', 'g', 'u', 'n', 'd', 'o']], .seqs [.lit ['e', 'm', ' '], .number, .lit [' ', 's', 'e', 'm', 'a', 'n', 'a', 's']], .seqs [.lit ['h', 'a', ' '], .number, .lit [' ', 'm', 'i', 'n', 'u', 't', 'o', 's']], .seqs [.lit ['h', 'a', ' '], .number, .lit [' ', 's', 'e', 'g', 'u', 'n', 'd', 'o']], .seqs [.lit ['h', 'a', ' '], .number, .lit [' ', 's', 'e', 'm', 'a', 'n', 'a', 's']], .seqs [.lit ['e', 'm', ' '], .number, .lit [' ', 'm', 'i', 'n', 'u', 't', 'o']], .seqs [.lit ['e', 'm', ' '], .number, .lit [' ', 's', 'e', 'm', 'a', 'n', 'a']], .seqs [.lit ['h', 'a', ' '], .number, .lit [' ', 'm', 'i', 'n', 'u', 't', 'o']], .seqs [.lit ['h', 'a', ' '], .number, .lit [' ', 's', 'e', 'm', 'a', 'n', 'a']], .seqs [.lit ['e', 'm', ' '], .number, .lit [' ', 'h', 'o', 'r', 'a', 's']], .seqs [.lit ['e', 'm', ' '], .number, .lit [' ', 'm', 'e', 's', 'e', 's']], .seqs [.lit ['h', 'a', ' '], .number, .lit [' ', 'h', 'o', 'r', 'a', 's']], .seqs [.lit ['h', 'a', ' '], .number, .lit [' ', 'm', 'e', 's', 'e', 's']], .seqs [.lit ['e', 'm', ' '], .number, .lit [' ', 'a', 'n', 'o', 's']], .seqs [.lit ['e', 'm', ' '], .number, .lit [' ', 'd', 'i', 'a', 's']], .seqs [.lit ['e', 'm', ' '], .number, .lit [' ', 'h', 'o', 'r', 'a']], .seqs [.lit ['e', 'm', ' '], .number, .lit [' ', 'm', 'i', 'n', 's']], .seqs [.lit ['e', 'm', ' '], .number, .lit [' ', 's', 'e', 'g', 's']], .seqs [.lit ['h', 'a', ' '], .number, .lit [' ', 'a', 'n', 'o', 's']], .seqs [.lit ['h', 'a', ' '], .number, .lit [' ', 'd', 'i', 'a', 's']], .seqs [.lit ['h', 'a', ' '], .number, .lit [' ', 'h', 'o', 'r', 'a']], .seqs [.lit ['h', 'a', ' '], .number, .lit [' ', 'm', 'i', 'n', 's']], .seqs [.lit ['e', 'm', ' '], .number, .lit [' ', 'a', 'n', 'o']], .seqs [.lit ['e', 'm', ' '], .number, .lit [' ', 'd', 'i', 'a']], .seqs [.lit ['e', 'm', ' '], .number, .lit [' ', 'm', 'e', 's']], .seqs [.lit ['e', 'm', ' '], .number, .lit [' ', 'm', 'i', 'n']], .seqs [.lit ['e', 'm', ' '], .number, .lit [' ', 's', 'e', 'g']], .seqs [.lit ['e', 'm', ' '], .number, .lit [' ', 's', 'e', 'm']], .seqs [.lit ['h', 'a', ' '], .number, .lit [' ', 'a', 'n', 'o']], .seqs [.lit ['h', 'a', ' '], .number, .lit [' ', 'd', 'i', 'a']], .seqs [.lit ['h', 'a', ' '], .number, .lit [' ', 'm', 'e', 's']], .seqs [.lit ['h', 'a', ' '], .number, .lit [' ', 'm', 'i', 'n']], .seqs [.lit ['h', 'a', ' '], .number, .lit [' ', 's', 'e', 'g']], .seqs [.lit ['h', 'a', ' '], .number, .lit [' ', 's', 'e', 'm']], .seqs [.lit ['e', 'm', ' '], .number, .lit [' ', 'h']], .seqs [.lit ['h', 'a', ' '], .number, .lit [' ', 'h']], .seqs [.lit ['h', 'a', ' '], .number, .lit [' ', 's']]]), .eos]),
  knownWords :=
   [['p', 'r', 'o', 'x', 'i', 'm', 'a', ' ', 's', 'e', 'm', 'a', 'n', 'a'], ['s', 'e', 'm', 'a', 'n', 'a', ' ', 'p', 'a', 's', 's', 'a', 'd', 'a'], ['s', 'e', 'g', 'u', 'n', 'd', 'a', '-', 'f', 'e', 'i', 'r', 'a'], ['q', 'u', 'a', 'r', 't', 'a', '-', 'f', 'e', 'i', 'r', 'a'], ['q', 'u', 'i', 'n', 't', 'a', '-', 'f', 'e', 'i', 'r', 'a'], ['a', 'n', 'o', ' ', 'p', 'a', 's', 's', 'a', 'd', 'o'], ['e', 's', 't', 'a', ' ', 's', 'e', 'm', 'a', 'n', 'a'], ['e', 's', 't', 'e', ' ', 'm', 'i', 'n', 'u', 't', 'o'], ['m', 'e', 's', ' ', 'p', 'a', 's', 's', 'a', 'd', 'o'], ['p', 'r', 'o', 'x', 'i', 'm', 'o', ' ', 'a', 'n', 'o'], ['p', 'r', 'o', 'x', 'i', 'm', 'o', ' ', 'm', 'e', 's'], ['s', 'e', 'x', 't', 'a', '-', 'f', 'e', 'i', 'r', 'a'], ['t', 'e', 'r', 'c', 'a', '-', 'f', 'e', 'i', 'r', 'a'], ['a', 'n', 't', 'e', 'o', 'n', 't', 'e', 'm'], ['e', 's', 't', 'a', ' ', 'h', 'o', 'r', 'a'], ['f', 'e', 'v', 'e', 'r', 'e', 'i', 'r', 'o'], ['s', 'e', 'p', 't', 'e', 'm', 'b', 'r', 'o'], ['d', 'a', ' ', 'm', 'a', 'n', 'h', 'a'], ['d', 'a', ' ', 't', 'a', 'r', 'd', 'e'], ['d', 'e', 'z', 'e', 'm', 'b', 'r', 'o'], ['e', 's', 't', 'e', ' ', 'a', 'n', 'o'], ['e', 's', 't', 'e', ' ', 'm', 'e', 's'], ['n', 'o', 'v', 'e', 'm', 'b', 'r', 'o'], ['s', 'e', 'g', 'u', 'n', 'd', 'o', 's'], ['s', 'e', 't', 'e', 'm', 'b', 'r', 'o'], ['d', 'o', 'm', 'i', 'n', 'g', 'o'], ['j', 'a', 'n', 'e', 'i', 'r', 'o'], ['m', 'i', 'n', 'u', 't', 'o', 's'], ['o', 'u', 't', 'u', 'b', 'r', 'o'], ['s', 'e', 'g', 'u', 'n', 'd', 'a'], ['s', 'e', 'g', 'u', 'n', 'd', 'o'], ['s', 'e', 'm', 'a', 'n', 'a', 's'], ['a', 'g', 'o', 's', 't', 'o'], ['a', 'm', 'a', 'n', 'h', 'a'], ['m', 'i', 'n', 'u', 't', 'o'], ['q', 'u', 'a', 'r', 't', 'a'], ['q', 'u', 'i', 'n', 't', 'a'], ['s', 'a', 'b', 'a', 'd', 'o'], ['s', 'e', 'm', 'a', 'n', 'a'], ['a', 'b', 'r', 'i', 'l'], ['a', 'g', 'o', 'r', 'a'], ['a', 't', 'r', 'a', 's'], ['c', 'e', 'r', 'c', 'a'], ['h', 'o', 'r', 'a', 's'], ['j', 'u', 'l', 'h', 'o'], ['j', 'u', 'n', 'h', 'o'], ['m', 'a', 'n', 'h', 'a'], ['m', 'a', 'r', 'c', 'o'], ['m', 'e', 's', 'e', 's'], ['o', 'n', 't', 'e', 'm'], ['s', 'e', 'x', 't', 'a'], ['t', 'a', 'r', 'd', 'e'], ['t', 'e', 'r', 'c', 'a'], ['a', 'n', 'o', 's'], ['d', 'i', 'a', 's'], ['h', 'o', 'j', 'e'], ['h', 'o', 'r', 'a'], ['m', 'a', 'i', 'o'], ['a', 'b', 'r'], ['a', 'g', 'o'], ['a', 'n', 'o'], ['d', 'e', 'z'], ['d', 'i', 'a'], ['d', 'o', 'm'], ['f', 'e', 'v'], ['g', 'm', 't'], ['j', 'a', 'n'], ['j', 'u', 'l'], ['j', 'u', 'n'], ['m', 'a', 'i'], ['m', 'a', 'r'], ['m', 'e', 's'], ['m', 'i', 'n'], ['n', 'o', 'v'], ['o', 'u', 't'], ['q', 'u', 'a'], ['q', 'u', 'i'], ['s', 'a', 'b'], ['s', 'e', 'g'], ['s', 'e', 'm'], ['s', 'e', 't'], ['s', 'e', 'x'], ['t', 'e', 'r'], ['u', 't', 'c'], ['a', 'm'], ['a', 's'], ['d', 'e'], ['e', 'm'], ['h', 'a'], ['p', 'm'], [' '], ['\''], ['+'], [','], ['-'], ['.'], ['/'], [':'], [';'], ['@'], ['['], [']'], ['e'], ['h'], ['m'], ['s'], ['z'], ['|']] }

/-- internal/data/pt.go: `pt_CV_Locale`. -/
def pt_CVLang : LangData := { pt_CVDict with
  relativeRegexes :=
   [(.seqs [.lit ['d', 'e', 'n', 't', 'r', 'o', ' ', 'd', 'e', ' '], .grp 1 (.number), .lit [' ', 's', 'e', 'g', 'u', 'n', 'd', 'o', 's']], [.lit ['i', 'n', ' '], .ref 1, .lit [' ', 's', 'e', 'c', 'o', 'n', 'd']]),
    (.seqs [.lit ['d', 'e', 'n', 't', 'r', 'o', ' ', 'd', 'e', ' '], .grp 1 (.number), .lit [' ', 'm', 'i', 'n', 'u', 't', 'o', 's']], [.lit ['i', 'n', ' '], .ref 1, .lit [' ', 'm', 'i', 'n', 'u', 't', 'e']]),
    (.seqs [.lit ['d', 'e', 'n', 't', 'r', 'o', ' ', 'd', 'e', ' '], .grp 1 (.number), .lit [' ', 's', 'e', 'g', 'u', 'n', 'd', 'o']], [.lit ['i', 'n', ' '], .ref 1, .lit [' ', 's', 'e', 'c', 'o', 'n', 'd']]),
    (.seqs [.lit ['d', 'e', 'n', 't', 'r', 'o', ' ', 'd', 'e', ' '], .grp 1 (.number), .lit [' ', 's', 'e', 'm', 'a', 'n', 'a', 's']], [.lit ['i', 'n', ' '], .ref 1, .lit [' ', 'w', 'e', 'e', 'k']]),
    (.seqs [.lit ['d', 'e', 'n', 't', 'r', 'o', ' ', 'd', 'e', ' '], .grp 1 (.number), .lit [' ', 'm', 'i', 'n', 'u', 't', 'o']], [.lit ['i', 'n', ' '], .ref 1, .lit [' ', 'm', 'i', 'n', 'u', 't', 'e']]),
    (.seqs [.lit ['d', 'e', 'n', 't', 'r', 'o', ' ', 'd', 'e', ' '], .grp 1 (.number), .lit [' ', 's', 'e', 'm', 'a', 'n', 'a']], [.lit ['i', 'n', ' '], .ref 1, .lit [' ', 'w', 'e', 'e', 'k']]),
    (.seqs [.lit ['d', 'e', 'n', 't', 'r', 'o', ' ', 'd', 'e', ' '], .grp 1 (.number), .lit [' ', 'h', 'o', 'r', 'a', 's']], [.lit ['i', 'n', ' '], .ref 1, .lit [' ', 'h', 'o', 'u', 'r']]),
    (.seqs [.lit ['d', 'e', 'n', 't', 'r', 'o', ' ', 'd', 'e', ' '], .grp 1 (.number), .lit [' ', 'm', 'e', 's', 'e', 's']], [.lit ['i', 'n', ' '], .ref 1, .lit [' ', 'm', 'o', 'n', 't', 'h']]),
    (.seqs [.lit ['d', 'e', 'n', 't', 'r', 'o', ' ', 'd', 'e', ' '], .grp 1 (.number), .lit [' ', 'a', 'n', 'o', 's']], [.lit ['i', 'n', ' '], .ref 1, .lit [' ', 'y', 'e', 'a', 'r']]),
    (.seqs [.lit ['d', 'e', 'n', 't', 'r', 'o', ' ', 'd', 'e', ' '], .grp 1 (.number), .lit [' ', 'd', 'i', 'a', 's']], [.lit ['i', 'n', ' '], .ref 1, .lit [' ', 'd', 'a', 'y']]),
    (.seqs [.lit ['d', 'e', 'n', 't', 'r', 'o', ' ', 'd', 'e', ' '], .grp 1 (.number), .lit [' ', 'h', 'o', 'r', 'a']], [.lit ['i', 'n', ' '], .ref 1, .lit [' ', 'h', 'o', 'u', 'r']]),
    (.seqs [.lit ['d', 'e', 'n', 't', 'r', 'o', ' ', 'd', 'e', ' '], .grp 1 (.number), .lit [' ', 'a', 'n', 'o']], [.lit ['i', 'n', ' '], .ref 1, .lit [' ', 'y', 'e', 'a', 'r']]),
    (.seqs [.lit ['d', 'e', 'n', 't', 'r', 'o', ' ', 'd', 'e', ' '], .grp 1 (.number), .lit [' ', 'd', 'i', 'a']], [.lit ['i', 'n', ' '], .ref 1, .lit [' ', 'd', 'a', 'y']]),
    (.seqs [.lit ['d', 'e', 'n', 't', 'r', 'o', ' ', 'd', 'e', ' '], .grp 1 (.number), .lit [' ', 'm', 'e', 's']], [.lit ['i', 'n', ' '], .ref 1, .lit [' ', 'm', 'o', 'n', 't', 'h']]),
    (.seqs [.lit ['d', 'e', 'n', 't', 'r', 'o', ' ', 'd', 'e', ' '], .grp 1 (.number), .lit [' ', 'm', 'i', 'n']], [.lit ['i', 'n', ' '], .ref 1, .lit [' ', 'm', 'i', 'n', 'u', 't', 'e']]),
    (.seqs [.lit ['d', 'e', 'n', 't', 'r', 'o', ' ', 'd', 'e', ' '], .grp 1 (.number), .lit [' ', 's', 'e', 'm']], [.lit ['i', 'n', ' '], .ref 1, .lit [' ', 'w', 'e', 'e', 'k']]),
    (.seqs [.lit ['d', 'e', 'n', 't', 'r', 'o', ' ', 'd', 'e', ' '], .grp 1 (.number), .lit [' ', 'h']], [.lit ['i', 'n', ' '], .ref 1, .lit [' ', 'h', 'o', 'u', 'r']]),
    (.seqs [.lit ['d', 'e', 'n', 't', 'r', 'o', ' ', 'd', 'e', ' '], .grp 1 (.number), .lit [' ', 's']], [.lit ['i', 'n', ' '], .ref 1, .lit [' ', 's', 'e', 'c', 'o', 'n', 'd']]),
    (.seqs [.lit ['h', 'a', ' '], .grp 1 (.number), .lit [' ', 's']], [.ref 1, .lit [' ', 's', 'e', 'c', 'o', 'n', 'd', ' ', 'a', 'g', 'o']])],
  rxCombined := some (.seqs [.grp 1 (.alts [.bos, .cls true [.letter, .mark, .digit], .lit ['_']]), .grp 2 (.alts [.seqs [.lit ['d', 'e', 'n', 't', 'r', 'o', ' ', 'd', 'e', ' '], .number, .lit [' ', 's', 'e', 'g', 'u', 'n', 'd', 'o', 's']], .seqs [.lit ['d', 'e', 'n', 't', 'r', 'o', ' ', 'd', 'e', ' '], .number, .lit [' ', 'm', 'i', 'n', 'u', 't', 'o', 's']], .seqs [.lit ['d', 'e', 'n', 't', 'r', 'o', ' ', 'd', 'e', ' '], .number, .lit [' ', 's', 'e', 'g', 'u', 'n', 'd', 'o']], .seqs [.lit ['d', 'e', 'n', 't', 'r', 'o', ' ', 'd', 'e', ' '], .number, .lit [' ', 's', 'e', 'm', 'a', 'n', 'a', 's']], .seqs [.lit ['d', 'e', 'n', 't', 'r', 'o', ' ', 'd', 'e', ' '], .number, .lit [' ', 'm', 'i', 'n', 'u', 't', 'o']], .seqs [.lit ['d', 'e', 'n', 't', 'r', 'o', ' ', 'd', 'e', ' '], .number, .lit [' ', 's', 'e', 'm', 'a', 'n', 'a']], .seqs [.lit ['d', 'e', 'n', 't', 'r', 'o', ' ', 'd', 'e', ' '], .number, .lit [' ', 'h', 'o', 'r', 'a', 's']], .seqs [.lit ['d', 'e', 'n', 't', 'r', 'o', ' ', 'd', 'e', ' '], .number, .lit [' ', 'm', 'e', 's', 'e', 's']], .seqs [.lit ['d', 'e', 'n', 't', 'r', 'o', ' ', 'd', 'e', ' '], .number, .lit [' ', 'a', 'n', 'o', 's']], .seqs [.lit ['d', 'e', 'n', 't', 'r', 'o', ' ', 'd', 'e', ' '], .number, .lit [' ', 'd', 'i', 'a', 's']], .seqs [.lit ['d', 'e', 'n', 't', 'r', 'o', ' ', 'd', 'e', ' '], .number, .lit [' ', 'h', 'o', 'r', 'a']], .seqs [.lit ['d', 'e', 'n', 't', 'r', 'o', ' ', 'd', 'e', ' '], .number, .lit [' ', 'a', 'n', 'o']], .seqs [.lit ['d', 'e', 'n', 't', 'r', 'o', ' ', 'd', 'e', ' '], .number, .lit [' ', 'd', 'i', 'a']], .seqs [.lit ['d', 'e', 'n', 't', 'r', 'o', ' ', 'd', 'e', ' '], .number, .lit [' ', 'm', 'e', 's']], .seqs [.lit ['d', 'e', 'n', 't', 'r', 'o', ' ', 'd', 'e', ' '], .number, .lit [' ', 'm', 'i', 'n']], .seqs [.lit ['d', 'e', 'n', 't', 'r', 'o', ' ', 'd', 'e', ' '], .number, .lit [' ', 's', 'e', 'm']], .seqs [.lit ['d', 'e', 'n', 't', 'r', 'o', ' ', 'd', 'e', ' '], .number, .lit [' ', 'h']], .seqs [.lit ['d', 'e', 'n', 't', 'r', 'o', ' ', 'd', 'e', ' '], .number, .lit [' ', 's']], .seqs [.lit ['e', 'm', ' '], .number, .lit [' ', 's', 'e', 'g', 'u', 'n', 'd', 'o', 's']], .seqs [.lit ['h', 'a', ' '], .number, .lit [' ', 's', 'e', 'g', 'u', 'n', 'd', 'o', 's']], .seqs [.lit ['e', 'm', ' '], .number, .lit [' ', 'm', 'i', 'n', 'u', 't', 'o', 's']], .seqs [.lit ['e', 'm', ' '], .number, .lit [' ', 's', 'e', 'g', 'u', 'n', 'd', 'o']], .seqs [.lit ['e', 'm', ' '], .number, .lit [' ', 's', 'e', 'm', 'a', 'n', 'a', 's']], .seqs [.lit ['h', 'a', ' '], .number, .lit [' ', 'm', 'i', 'n', 'u', 't', 'o', 's']], .seqs [.lit ['h', 'a', ' '], .number, .lit [' ', 's', 'e', 'g', 'u', 'n', 'd', 'o']], .seqs [.lit ['h', 'a', ' '], .number, .lit [' ', 's', 'e', 'm', 'a', 'n', 'a', 's']], .seqs [.lit ['e', 'm', ' '], .number, .lit [' ', 'm', 'i', 'n', 'u', 't', 'o']], .seqs [.lit ['e', 'm', ' '], .number, .lit [' ', 's', 'e', 'm', 'a', 'n', 'a']], .seqs [.lit ['h', 'a', ' '], .number, .lit [' ', 'm', 'i', 'n', 'u', 't', 'o']], .seqs [.lit ['h', 'a', ' '], .number, .lit [' ', 's', 'e', 'm', 'a', 'n', 'a']], .seqs [.lit ['e', 'm', ' '], .number, .lit [' ', 'h', 'o', 'r', 'a', 's']], .seqs [.lit ['e', 'm', ' '], .number, .lit [' ', 'm', 'e', 's', 'e', 's']], .seqs [.lit ['h', 'a', ' '], .number, .lit [' ', 'h', 'o', 'r', 'a', 's']], .seqs [.lit ['h', 'a', ' '], .number, .lit [' ', 'm', 'e', 's', 'e', 's']], .seqs [.lit ['e', 'm', ' '], .number, .lit [' ', 'a', 'n', 'o', 's']], .seqs [.lit ['e', 'm', ' '], .number, .lit [' ', 'd', 'i', 'a', 's']], .seqs [.lit ['e', 'm', ' '], .number, .lit [' ', 'h', 'o', 'r', 'a']], .seqs [.lit ['e', 'm', ' '], .number, .lit [' ', 'm', 'i', 'n', 's']], .seqs [.lit ['e', 'm', ' '], .number, .lit [' ', 's', 'e', 'g', 's']], .seqs [.lit ['h', 'a', ' '], .number, .lit [' ', 'a', 'n', 'o', 's']], .seqs [.lit ['h', 'a', ' '], .number, .lit [' ', 'd', 'i', 'a', 's']], .seqs [.lit ['h', 'a', ' '], .number, .lit [' ', 'h', 'o', 'r', 'a']], .seqs [.lit ['h', 'a', ' '], .number, .lit [' ', 'm', 'i', 'n', 's']], .seqs [.lit ['e', 'm', ' '], .number, .lit [' ', 'a', 'n', 'o']], .seqs [.lit ['e', 'm', ' '], .number, .lit [' ', 'd', 'i', 'a']], .seqs [.lit ['e', 'm', ' '], .number, .lit [' ', 'm', 'e', 's']], .seqs [.lit ['e', 'm', ' '], .number, .lit [' ', 'm', 'i', 'n']], .seqs [.lit ['e', 'm', ' '], .number, .lit [' ', 's', 'e', 'g']], .seqs [.lit ['e', 'm', ' '], .number, .lit [' ', 's', 'e', 'm']], .seqs [.lit ['h', 'a', ' '], .number, .lit [' ', 'a', 'n', 'o']], .seqs [.lit ['h', 'a', ' '], .number, .lit [' ', 'd', 'i', 'a']], .seqs [.lit ['h', 'a', ' '], .number, .lit [' ', 'm', 'e', 's']], .seqs [.lit ['h', 'a', ' '], .number, .lit [' ', 'm', 'i', 'n']], .seqs [.lit ['h', 'a', ' '], .number, .lit [' ', 's', 'e', 'g']], .seqs [.lit ['h', 'a', ' '], .number, .lit [' ', 's', 'e', 'm']], .seqs [.lit ['e', 'm', ' '], .number, .lit [' ', 'h']], .seqs [.lit ['h', 'a', ' '], .number, .lit [' ', 'h']], .seqs [.lit ['h', 'a', ' '], .number, .lit [' ', 's']]]), .grp 3 (.alts [.eos, .cls true [.letter, .mark, .digit], .lit ['_']])], 3),
  rxExact := some (.seqs [.bos, .grp 1 (.alts [.seqs [.lit ['d', 'e', 'n', 't', 'r', 'o', ' ', 'd', 'e', ' '], .number, .lit [' ', 's', 'e', 'g', 'u', 'n', 'd', 'o', 's']], .seqs [.lit ['d', 'e', 'n', 't', 'r', 'o', ' ', 'd', 'e', ' '], .number, .lit [' ', 'm', 'i', 'n', 'u', 't', 'o', 's']], .seqs [.lit ['d', 'e', 'n', 't', 'r', 'o', ' ', 'd', 'e', ' '], .number, .lit [' ', 's', 'e', 'g', 'u', 'n', 'd', 'o']], .seqs [.lit ['d', 'e', 'n', 't', 'r', 'o', ' ', 'd', 'e', ' '], .number, .lit [' ', 's', 'e', 'm', 'a', 'n', 'a', 's']], .seqs [.lit ['d', 'e', 'n', 't', 'r', 'o', ' ', 'd', 'e', ' '], .number, .lit [' ', 'm', 'i', 'n', 'u', 't', 'o']], .seqs [.lit ['d', 'e', 'n', 't', 'r', 'o', ' ', 'd', 'e', ' '], .number, .lit [' ', 's', 'e', 'm', 'a', 'n', 'a']], .seqs [.lit ['d', 'e', 'n', 't', 'r', 'o', ' ', 'd', 'e', ' '], .number, .lit [' ', 'h', 'o', 'r', 'a', 's']], .seqs [.lit ['d', 'e', 'n', 't', 'r', 'o', ' ', 'd', 'e', ' '], .number, .lit [' ', 'm', 'e', 's', 'e', 's']], .seqs [.lit ['d', 'e', 'n', 't', 'r', 'o', ' ', 'd', 'e', ' '], .number, .lit [' ', 'a', 'n', 'o', 's']], .seqs [.lit ['d', 'e', 'n', 't', 'r', 'o', ' ', 'd', 'e', ' '], .number, .lit [' ', 'd', 'i', 'a', 's']], .seqs [.lit ['d', 'e', 'n', 't', 'r', 'o', ' ', 'd', 'e', ' '], .number, .lit [' ', 'h', 'o', 'r', 'a']], .seqs [.lit ['d', 'e', 'n', 't', 'r', 'o', ' ', 'd', 'e', ' '], .number, .lit [' ', 'a', 'n', 'o']], .seqs [.lit ['d', 'e', 'n', 't', 'r', 'o', ' ', 'd', 'e', ' '], .number, .lit [' ', 'd', 'i', 'a']], .seqs [.lit ['d', 'e', 'n', 't', 'r', 'o', ' ', 'd', 'e', ' '], .number, .lit [' ', 'm', 'e', 's']], .seqs [.lit ['d', 'e', 'n', 't', 'r', 'o', ' ', 'd', 'e', ' '], .number, .lit [' ', 'm', 'i', 'n']], .seqs [.lit ['d', 'e', 'n', 't', 'r', 'o', ' ', 'd', 'e', ' '], .number, .lit [' ', 's', 'e', 'm']], .seqs [.lit ['d', 'e', 'n', 't', 'r', 'o', ' ', 'd', 'e', ' '], .number, .lit [' ', 'h']], .seqs [.lit ['d', 'e', 'n', 't', 'r', 'o', ' ', 'd', 'e', ' '], .number, .lit [' ', 's']], .seqs [.lit ['e', 'm', ' '], .number, .lit [' ', 's', 'e', 'g', 'u', 'n', 'd', 'o', 's']], .seqs [.lit ['h', 'a', ' '], .number, .lit [' ', 's', 'e', 'g', 'u', 'n', 'd', 'o', 's']], .seqs [.lit ['e', 'm', ' '], .number, .lit [' ', 'm', 'i', 'n', 'u', 't', 'o', 's']], .seqs [.lit ['e', 'm', ' '], .number, .lit [' ', 's', 'e', 'g', 'u', 'n', 'd', 'o']], .seqs [.lit ['e', 'm', ' '], .number, .lit [' ', 's', 'e', 'm', 'a', 'n', 'a', 's']], .seqs [.lit ['h', 'a', ' '], .number, .lit [' ', 'm', 'i', 'n', 'u', 't', 'o', 's']], .seqs [.lit ['h', 'a', ' '], .number, .lit [' ', 's', 'e', 'g', 'u', 'n', 'd', 'o']], .seqs [.lit ['h', 'a', ' '], .number, .lit [' ', 's', 'e', 'm', 'a', 'n', 'a', 's']], .seqs [.lit ['e', 'm', ' '], .number, .lit [' ', 'm', 'i', 'n', 'u', 't', 'o']], .seqs [.lit ['e', 'm', ' '], .number, .lit [' ', 's', 'e', 'm', 'a', 'n', 'a']], .seqs [.lit ['h', 'a', ' '], .number, .lit [' ', 'm', 'i', 'n', 'u', 't', 'o']], .seqs [.lit ['h', 'a', ' '], .number, .lit [' ', 's', 'e', 'm', 'a', 'n', 'a']], .seqs [.lit ['e', 'm', ' '], .number, .lit [' ', 'h', 'o', 'r', 'a', 's']], .seqs [.lit ['e', 'm', ' '], .number, .lit [' ', 'm', 'e', 's', 'e', 's']], .seqs [.lit ['h', 'a', ' '], .number, .lit [' ', 'h', 'o', 'r', 'a', 's']], .seqs [.lit ['h', 'a', ' '], .number, .lit [' ', 'm', 'e', 's', 'e', 's']], .seqs [.lit ['e', 'm', ' '], .number, .lit [' ', 'a', 'n', 'o', 's']], .seqs [.lit ['e', 'm', ' '], .number, .lit [' ', 'd', 'i', 'a', 's']], .seqs [.lit ['e', 'm', ' '], .number, .lit [' ', 'h', 'o', 'r', 'a']], .seqs [.lit ['e', 'm', ' '], .number, .lit [' ', 'm', 'i', 'n', 's']], .seqs [.lit ['e', 'm', ' '], .number, .lit [' ', 's', 'e', 'g', 's']], .seqs [.lit ['h', 'a', ' '], .number, .lit [' ', 'a', 'n', 'o', 's']], .seqs [.lit ['h', 'a', ' '], .number, .lit [' ', 'd', 'i', 'a', 's']], .seqs [.lit ['h', 'a', ' '], .number, .lit [' ', 'h', 'o', 'r', 'a']], .seqs [.lit ['h', 'a', ' '], .number, .lit [' ', 'm', 'i', 'n', 's']], .seqs [.lit ['e', 'm', ' '], .number, .lit [' ', 'a', 'n', 'o']], .seqs [.lit ['e', 'm', ' '], .number, .lit [' ', 'd', 'i', 'a']], .seqs [.lit ['e', 'm', ' '], .number, .lit [' ', 'm', 'e', 's']], .seqs [.lit ['e', 'm', ' '], .number, .lit [' ', 'm', 'i', 'n']], .seqs [.lit ['e', 'm', ' '], .number, .lit [' ', 's', 'e', 'g']], .seqs [.lit ['e', 'm', ' '], .number, .lit [' ', 's', 'e', 'm']], .seqs [.lit ['h', 'a', ' '], .number, .lit [' ', 'a', 'n', 'o']], .seqs [.lit ['h', 'a', ' '], .number, .lit [' ', 'd', 'i', 'a']], .seqs [.lit ['h', 'a', ' '], .number, .lit [' ', 'm', 'e', 's']], .seqs [.lit ['h', 'a', ' '], .number, .lit [' ', 'm', 'i', 'n']], .seqs [.lit ['h', 'a', ' '], .number, .lit [' ', 's', 'e', 'g']], .seqs [.lit ['h', 'a', ' '], .number, .lit [' ', 's', 'e', 'm']], .seqs [.lit ['e', 'm', ' '], .number, .lit [' ', 'h']], .seqs [.lit ['h', 'a', ' '], .number, .lit [' ', 'h']], .seqs [.lit ['h', 'a', ' '], .number, .lit [' ', 's']]]), .eos]),
  knownWords :=
   [['p', 'r', 'o', 'x', 'i', 'm', 'a', ' ', 's', 'e', 'm', 'a', 'n', 'a'], ['s', 'e', 'm', 'a', 'n', 'a', ' ', 'p', 'a', 's', 's', 'a', 'd', 'a'], ['s', 'e', 'g', 'u', 'n', 'd', 'a', '-', 'f', 'e', 'i', 'r', 'a'], ['q', 'u', 'a', 'r', 't', 'a', '-', 'f', 'e', 'i', 'r', 'a'], ['q', 'u', 'i', 'n', 't', 'a', '-', 'f', 'e', 'i', 'r', 'a'], ['a', 'n', 'o', ' ', 'p', 'a', 's', 's', 'a', 'd', 'o'], ['e', 's', 't', 'a', ' ', 's', 'e', 'm', 'a', 'n', 'a'], ['e', 's', 't', 'e', ' ', 'm', 'i', 'n', 'u', 't', 'o'], ['m', 'e', 's', ' ', 'p', 'a', 's', 's', 'a', 'd', 'o'], ['p', 'r', 'o', 'x', 'i', 'm', 'o', ' ', 'a', 'n', 'o'], ['p', 'r', 'o', 'x', 'i', 'm', 'o', ' ', 'm', 'e', 's'], ['s', 'e', 'x', 't', 'a', '-', 'f', 'e', 'i', 'r', 'a'], ['t', 'e', 'r', 'c', 'a', '-', 'f', 'e', 'i', 'r', 'a'], ['a', 'n', 't', 'e', 'o', 'n', 't', 'e', 'm'], ['e', 's', 't', 'a', ' ', 'h', 'o', 'r', 'a'], ['f', 'e', 'v', 'e', 'r', 'e', 'i', 'r', 'o'], ['s', 'e', 'p', 't', 'e', 'm', 'b', 'r', 'o'], ['d', 'a', ' ', 'm', 'a', 'n', 'h', 'a'], ['d', 'a', ' ', 't', 'a', 'r', 'd', 'e'], ['d', 'e', 'z', 'e', 'm', 'b', 'r', 'o'], ['e', 's', 't', 'e', ' ', 'a', 'n', 'o'], ['e', 's', 't', 'e', ' ', 'm', 'e', 's'], ['n', 'o', 'v', 'e', 'm', 'b', 'r', 'o'], ['s', 'e', 'g', 'u', 'n', 'd', 'o', 's'], ['s', 'e', 't', 'e', 'm', 'b', 'r', 'o'], ['d', 'o', 'm', 'i', 'n', 'g', 'o'], ['j', 'a', 'n', 'e', 'i', 'r', 'o'], ['m', 'i', 'n', 'u', 't', 'o', 's'], ['o', 'u', 't', 'u', 'b', 'r', 'o'], ['s', 'e', 'g', 'u', 'n', 'd', 'a'], ['s', 'e', 'g', 'u', 'n', 'd', 'o'], ['s', 'e', 'm', 'a', 'n', 'a', 's'], ['a', 'g', 'o', 's', 't', 'o'], ['a', 'm', 'a', 'n', 'h', 'a'], ['m', 'i', 'n', 'u', 't', 'o'], ['q', 'u', 'a', 'r', 't', 'a'], ['q', 'u', 'i', 'n', 't', 'a'], ['s', 'a', 'b', 'a', 'd', 'o'], ['s', 'e', 'm', 'a', 'n', 'a'], ['a', 'b', 'r', 'i', 'l'], ['a', 'g', 'o', 'r', 'a'], ['a', 't', 'r', 'a', 's'], ['c', 'e', 'r', 'c', 'a'], ['h', 'o', 'r', 'a', 's'], ['j', 'u', 'l', 'h', 'o'], ['j', 'u', 'n', 'h', 'o'], ['m', 'a', 'n', 'h', 'a'], ['m', 'a', 'r', 'c', 'o'], ['m', 'e', 's', 'e', 's'], ['o', 'n', 't', 'e', 'm'], ['s', 'e', 'x', 't', 'a'], ['t', 'a', 'r', 'd', 'e'], ['t', 'e', 'r', 'c', 'a'], ['a', 'n', 'o', 's'], ['d', 'i', 'a', 's'], ['h', 'o', 'j', 'e'], ['h', 'o', 'r', 'a'], ['m', 'a', 'i', 'o'], ['a', 'b', 'r'], ['a', 'g', 'o'], ['a', 'n', 'o'], ['d', 'e', 'z'], ['d', 'i', 'a'], ['d', 'o', 'm'], ['f', 'e', 'v'], ['g', 'm', 't'], ['j', 'a', 'n'], ['j', 'u', 'l'], ['j', 'u', 'n'], ['m', 'a', 'i'], ['m', 'a', 'r'], ['m', 'e', 's'], ['m', 'i', 'n'], ['n', 'o', 'v'], ['o', 'u', 't'], ['q', 'u', 'a'], ['q', 'u', 'i'], ['s', 'a', 'b'], ['s', 'e', 'g'], ['s', 'e', 'm'], ['s', 'e', 't'], ['s', 'e', 'x'], ['t', 'e', 'r'], ['u', 't', 'c'], ['a', 'm'], ['a', 's'], ['d', 'e'], ['e', 'm'], ['h', 'a'], ['p', 'm'], [' '], ['\''], ['+'], [','], ['-'], ['.'], ['/'], [':'], [';'], ['@'], ['['], [']'], ['e'], ['h'], ['m'], ['s'], ['z'], ['|']] }

/-- internal/data/pt.go: `pt_GQ_Locale`. -/
def pt_GQLang : LangData := { pt_GQDict with
  relativeRegexes :=
   [(.seqs [.lit ['d', 'e', 'n', 't', 'r', 'o', ' ', 'd', 'e', ' '], .grp 1 (.number), .lit [' ', 's', 'e', 'g', 'u', 'n', 'd', 'o', 's']], [.lit ['i', 'n', ' '], .ref 1, .lit [' ', 's', 'e', 'c', 'o', 'n', 'd']]),
    (.seqs [.lit ['d', 'e', 'n', 't', 'r', 'o', ' ', 'd', 'e', ' '], .grp 1 (.number), .lit [' ', 'm', 'i', 'n', 'u', 't', 'o', 's']], [.lit ['i', 'n', ' '], .ref 1, .lit [' ', 'm', 'i', 'n', 'u', 't', 'e']]),
    (.seqs [.lit ['d', 'e', 'n', 't', 'r', 'o', ' ', 'd', 'e', ' '], .grp 1 (.number), .lit [' ', 's', 'e', 'g', 'u', 'n', 'd', 'o']], [.lit ['i', 'n', ' '], .ref 1, .lit [' ', 's', 'e', 'c', 'o', 'n', 'd']]),
    (.seqs [.lit ['d', 'e', 'n', 't', 'r', 'o', ' ', 'd', 'e', ' '], .grp 1 (.number), .lit [' ', 's', 'e', 'm', 'a', 'n', 'a', 's']], [.lit ['i', 'n', ' '], .ref 1, .lit [' ', 'w', 'e', 'e', 'k']]),
    (.seqs [.lit ['d', 'e', 'n', 't', 'r', 'o', ' ', 'd', 'e', ' '], .grp 1 (.number), .lit [' ', 'm', 'i', 'n', 'u', 't', 'o']], [.lit ['i', 'n', ' '], .ref 1, .lit [' ', 'm', 'i', 'n', 'u', 't', 'e']]),
    (.seqs [.lit ['d', 'e', 'n', 't', 'r', 'o', ' ', 'd', 'e', ' '], .grp 1 (.number), .lit [' ', 's', 'e', 'm', 'a', 'n', 'a']], [.lit ['i', 'n', ' '], .ref 1, .lit [' ', 'w', 'e', 'e', 'k']]),
    (.seqs [.lit ['d', 'e', 'n', 't', 'r', 'o', ' ', 'd', 'e', ' '], .grp 1 (.number), .lit [' ', 'h', 'o', 'r', 'a', 's']], [.lit ['i', 'n', ' '], .ref 1, .lit [' ', 'h', 'o', 'u', 'r']]),
    (.seqs [.lit ['d', 'e', 'n', 't', 'r', 'o', ' ', 'd', 'e', ' '], .grp 1 (.number), .lit [' ', 'm', 'e', 's', 'e', 's']], [.lit ['i', 'n', ' '], .ref 1, .lit [' ', 'm', 'o', 'n', 't', 'h']]),
    (.seqs [.lit ['d', 'e', 'n', 't', 'r', 'o', ' ', 'd', 'e', ' '], .grp 1 (.number), .lit [' ', 'a', 'n', 'o', 's']], [.lit ['i', 'n', ' '], .ref 1, .lit [' ', 'y', 'e', 'a', 'r']]),
    (.seqs [.lit ['d', 'e', 'n', 't', 'r', 'o', ' ', 'd', 'e', ' '], .grp 1 (.number), .lit [' ', 'd', 'i', 'a', 's']], [.lit ['i', 'n', ' '], .ref 1, .lit [' ', 'd', 'a', 'y']]),
    (.seqs [.lit ['d', 'e', 'n', 't', 'r', 'o', ' ', 'd', 'e', ' '], .grp 1 (.number), .lit [' ', 'h', 'o', 'r', 'a']], [.lit ['i', 'n', ' '], .ref 1, .lit [' ', 'h', 'o', 'u', 'r']]),
    (.seqs [.lit ['d', 'e', 'n', 't', 'r', 'o', ' ', 'd', 'e', ' '], .grp 1 (.number), .lit [' ', 'a', 'n', 'o']], [.lit ['i', 'n', ' '], .ref 1, .lit [' ', 'y', 'e', 'a', 'r']]),
    (.seqs [.lit ['d', 'e', 'n', 't', 'r', 'o', ' ', 'd', 'e', ' '], .grp 1 (.number), .lit [' ', 'd', 'i', 'a']], [.lit ['i', 'n', ' '], .ref 1, .lit [' ', 'd', 'a', 'y']]),
    (.seqs [.lit ['d', 'e', 'n', 't', 'r', 'o', ' ', 'd', 'e', ' '], .grp 1 (.number), .lit [' ', 'm', 'e', 's']], [.lit ['i', 'n', ' '], .ref 1, .lit [' ', 'm', 'o', 'n', 't', 'h']]),
    (.seqs [.lit ['d', 'e', 'n', 't', 'r', 'o', ' ', 'd', 'e', ' '], .grp 1 (.number), .lit [' ', 'm', 'i', 'n']], [.lit ['i', 'n', ' '], .ref 1, .lit [' ', 'm', 'i', 'n', 'u', 't', 'e']]),
    (.seqs [.lit ['d', 'e', 'n', 't', 'r', 'o', ' ', 'd', 'e', ' '], .grp 1 (.number), .lit [' ', 's', 'e', 'm']], [.lit ['i', 'n', ' '], .ref 1, .lit [' ', 'w', 'e', 'e', 'k']]),
    (.seqs [.lit ['d', 'e', 'n', 't', 'r', 'o', ' ', 'd', 'e', ' '], .grp 1 (.number), .lit [' ', 'h']], [.lit ['i', 'n', ' '], .ref 1, .lit [' ', 'h', 'o', 'u', 'r']]),
    (.seqs [.lit ['d', 'e', 'n', 't', 'r', 'o', ' ', 'd', 'e', ' '], .grp 1 (.number), .lit [' ', 's']], [.lit ['i', 'n', ' '], .ref 1, .lit [' ', 's', 'e', 'c', 'o', 'n', 'd']]),
    (.seqs [.lit ['h', 'a', ' '], .grp 1 (.number), .lit [' ', 's']], [.ref 1, .lit [' ', 's', 'e', 'c', 'o', 'n', 'd', ' ', 'a', 'g', 'o']])],
  rxCombined := some (.seqs [.grp 1 (.alts [.bos, .cls true [.letter, .mark, .digit], .lit ['_']]), .grp 2 (.alts [.seqs [.lit ['d', 'e', 'n', 't', 'r', 'o', ' ', 'd', 'e', ' '], .number, .lit [' ', 's', 'e', 'g', 'u', 'n', 'd', 'o', 's']], .seqs [.lit ['d', 'e', 'n', 't', 'r', 'o', ' ', 'd', 'e', ' '], .number, .lit [' ', 'm', 'i', 'n', 'u', 't', 'o', 's']], .seqs [.lit ['d', 'e', 'n', 't', 'r', 'o', ' ', 'd', 'e', ' '], .number, .lit [' ', 's', 'e', 'g', 'u', 'n', 'd', 'o']], .seqs [.lit ['d', 'e', 'n', 't', 'r', 'o', ' ', 'd', 'e', ' '], .number, .lit [' ', 's', 'e', 'm', 'a', 'n', 'a', 's']], .seqs [.lit ['d', 'e', 'n', 't', 'r', 'o', ' ', 'd', 'e', ' '], .number, .lit [' ', 'm', 'i', 'n', 'u', 't', 'o']], .seqs [.lit ['d', 'e', 'n', 't', 'r', 'o', ' ', 'd', 'e', ' '], .number, .lit [' ', 's', 'e', 'm', 'a', 'n', 'a']], .seqs [.lit ['d', 'e', 'n', 't', 'r', 'o', ' ', 'd', 'e', ' '], .number, .lit [' ', 'h', 'o', 'r', 'a', 's']], .seqs [.lit ['d', 'e', 'n', 't', 'r', 'o', ' ', 'd', 'e', ' '], .number, .lit [' ', 'm', 'e', 's', 'e', 's']], .seqs [.lit ['d', 'e', 'n', 't', 'r', 'o', ' ', 'd', 'e', ' '], .number, .lit [' ', 'a', 'n', 'o', 's']], .seqs [.lit ['d', 'e', 'n', 't', 'r', 'o', ' ', 'd', 'e', ' '], .number, .lit [' ', 'd', 'i', 'a', 's']], .seqs [.lit ['d', 'e', 'n', 't', 'r', 'o', ' ', 'd', 'e', ' '], .number, .lit [' ', 'h', 'o', 'r', 'a']], .seqs [.lit ['d', 'e', 'n', 't', 'r', 'o', ' ', 'd', 'e', ' '], .number, .lit [' ', 'a', 'n', 'o']], .seqs [.lit ['d', 'e', 'n', 't', 'r', 'o', ' ', 'd', 'e', ' '], .number, .lit [' ', 'd', 'i', 'a']], .seqs [.lit ['d', 'e', 'n', 't', 'r', 'o', ' ', 'd', 'e', ' '], .number, .lit [' ', 'm', 'e', 's']], .seqs [.lit ['d', 'e', 'n', 't', 'r', 'o', ' ', 'd', 'e', ' '], .number, .lit [' ', 'm', 'i', 'n']], .seqs [.lit ['d', 'e', 'n', 't', 'r', 'o', ' ', 'd', 'e', ' '], .number, .lit [' ', 's', 'e', 'm']], .seqs [.lit ['d', 'e', 'n', 't', 'r', 'o', ' ', 'd', 'e', ' '], .number, .lit [' ', 'h']], .seqs [.lit ['d', 'e', 'n', 't', 'r', 'o', ' ', 'd', 'e', ' '], .number, .lit [' ', 's']], .seqs [.lit ['e', 'm', ' '], .number, .lit [' ', 's', 'e', 'g', 'u', 'n', 'd', 'o', 's']], .seqs [.lit ['h', 'a', ' '], .number, .lit [' ', 's', 'e', 'g', 'u', 'n', 'd', 'o', 's']], .seqs [.lit ['e', 'm', ' '], .number, .lit [' ', 'm', 'i', 'n', 'u', 't', 'o', 's']], .seqs [.lit ['e', 'm', ' '], .number, .lit [' ', 's', 'e', 'g', 'u', 'n', 'd', 'o']], .seqs [.lit ['e', 'm', ' '], .number, .lit [' ', 's', 'e', 'm', 'a', 'n', 'a', 's']], .seqs [.lit ['h', 'a', ' '], .number, .lit [' ', 'm', 'i', 'n', 'u', 't', 'o', 's']], .seqs [.lit ['h', 'a', ' '], .number, .lit [' ', 's', 'e', 'g', 'u', 'n', 'd', 'o']], .seqs [.lit ['h', 'a', ' '], .number, .lit [' ', 's', 'e', 'm', 'a', 'n', 'a', 's']], .seqs [.lit ['e', 'm', ' '], .number, .lit [' ', 'm', 'i', 'n', 'u', 't', 'o']], .seqs [.lit ['e', 'm', ' '], .number, .lit [' ', 's', 'e', 'm', 'a', 'n', 'a']], .seqs [.lit ['h', 'a', ' '], .number, .lit [' ', 'm', 'i', 'n', 'u', 't', 'o']], .seqs [.lit ['h', 'a', ' '], .number, .lit [' ', 's', 'e', 'm', 'a', 'n', 'a']], .seqs [.lit ['e', 'm', ' '], .number, .lit [' ', 'h', 'o', 'r', 'a', 's']], .seqs [.lit ['e', 'm', ' '], .number, .lit [' ', 'm', 'e', 's', 'e', 's']], .seqs [.lit ['h', 'a', ' '], .number, .lit [' ', 'h', 'o', 'r', 'a', 's']], .seqs [.lit ['h', 'a', ' '], .number, .lit [' ', 'm', 'e', 's', 'e', 's']], .seqs [.lit ['e', 'm', ' '], .number, .lit [' ', 'a', 'n', 'o', 's']], .seqs [.lit ['e', 'm', ' '], .number, .lit [' ', 'd', 'i', 'a', 's']], .seqs [.lit ['e', 'm', ' '], .number, .lit [' ', 'h', 'o', 'r', 'a']], .seqs [.lit ['e', 'm', ' '], .number, .lit [' ', 'm', 'i', 'n', 's']], .seqs [.lit ['e', 'm', ' '], .number, .lit [' ', 's', 'e', 'g', 's']], .seqs [.lit ['h', 'a', ' '], .number, .lit [' ', 'a', 'n', 'o', 's']], .seqs [.lit ['h', 'a', ' '], .number, .lit [' ', 'd', 'i', 'a', 's']], .seqs [.lit ['h', 'a', ' '], .number, .lit [' ', 'h', 'o', 'r', 'a']], .seqs [.lit ['h', 'a', ' '], .number, .lit [' ', 'm', 'i', 'n', 's']], .seqs [.lit ['e', 'm', ' '], .number, .lit [' ', 'a', 'n', 'o']], .seqs [.lit ['e', 'm', ' '], .number, .lit [' ', 'd', 'i', 'a']], .seqs [.lit ['e', 'm', ' '], .number, .lit [' ', 'm', 'e', 's']], .seqs [.lit ['e', 'm', ' '], .number, .lit [' ', 'm', 'i', 'n']], .seqs [.lit ['e', 'm', ' '], .number, .lit [' ', 's', 'e', 'g']], .seqs [.lit ['e', 'm', ' '], .number, .lit [' ', 's', 'e', 'm']], .seqs [.lit ['h', 'a', ' '], .number, .lit [' ', 'a', 'n', 'o']], .seqs [.lit ['h', 'a', ' '], .number, .lit [' ', 'd', 'i', 'a']], .seqs [.lit ['h', 'a', ' '], .number, .lit [' ', 'm', 'e', 's']], .seqs [.lit ['h', 'a', ' '], .number, .lit [' ', 'm', 'i', 'n']], .seqs [.lit ['h', 'a', ' '], .number, .lit [' ', 's', 'e', 'g']], .seqs [.lit ['h', 'a', ' '], .number, .lit [' ', 's', 'e', 'm']], .seqs [.lit ['e', 'm', ' '], .number, .lit [' ', 'h']], .seqs [.lit ['h', 'a', ' '], .number, .lit [' ', 'h']], .seqs [.lit ['h', 'a', ' '], .number, .lit [' ', 's']]]), .grp 3 (.alts [.eos, .cls true [.letter, .mark, .digit], .lit ['_']])], 3),
  rxExact := some (.seqs [.bos, .grp 1 (.alts [.seqs [.lit ['d', 'e', 'n', 't', 'r', 'o', ' ', 'd', 'e', ' '], .number, .lit [' ', 's', 'e', 'g', 'u', 'n', 'd', 'o', 's']], .seqs [.lit ['d', 'e', 'n', 't', 'r', 'o', ' ', 'd', 'e', ' '], .number, .lit [' ', 'm', 'i', 'n', 'u', 't', 'o', 's']], .seqs [.lit ['d', 'e', 'n', 't', 'r', 'o', ' ', 'd', 'e', ' '], .number, .lit [' ', 's', 'e', 'g', 'u', 'n', 'd', 'o']], .seqs [.lit ['d', 'e', 'n', 't', 'r', 'o', ' ', 'd', 'e', ' '], .number, .lit [' ', 's', 'e', 'm', 'a', 'n', 'a', 's']], .seqs [.lit ['d', 'e', 'n', 't', 'r', 'o', ' ', 'd', 'e', ' '], .number, .lit [' ', 'm', 'i', 'n', 'u', 't', 'o']], .seqs [.lit ['d', 'e', 'n', 't', 'r', 'o', ' ', 'd', 'e', ' '], .number, .lit [' ', 's', 'e', 'm', 'a', 'n', 'a']], .seqs [.lit ['d', 'e', 'n', 't', 'r', 'o', ' ', 'd', 'e', ' '], .number, .lit [' ', 'h', 'o', 'r', 'a', 's']], .seqs [.lit ['d', 'e', 'n', 't', 'r', 'o', ' ', 'd', 'e', ' '], .number, .lit [' ', 'm', 'e', 's', 'e', 's']], .seqs [.lit ['d', 'e', 'n', 't', 'r', 'o', ' ', 'd', 'e', ' '], .number, .lit [' ', 'a', 'n', 'o', 's']], .seqs [.lit ['d', 'e', 'n', 't', 'r', 'o', ' ', 'd', 'e', ' '], .number, .lit [' ', 'd', 'i', 'a', 's']], .seqs [.lit ['d', 'e', 'n', 't', 'r', 'o', ' ', 'd', 'e', ' '], .number, .lit [' ', 'h', 'o', 'r', 'a']], .seqs [.lit ['d', 'e', 'n', 't', 'r', 'o', ' ', 'd', 'e', ' '], .number, .lit [' ', 'a', 'n', 'o']], .seqs [.lit ['d', 'e', 'n', 't', 'r', 'o', ' ', 'd', 'e', ' '], .number, .lit [' ', 'd', 'i', 'a']], .seqs [.lit ['d', 'e', 'n', 't', 'r', 'o', ' ', 'd', 'e', ' '], .number, .lit [' ', 'm', 'e', 's']], .seqs [.lit ['d', 'e', 'n', 't', 'r', 'o', ' ', 'd', 'e', ' '], .number, .lit [' ', 'm', 'i', 'n']], .seqs [.lit ['d', 'e', 'n', 't', 'r', 'o', ' ', 'd', 'e', ' '], .number, .lit [' ', 's', 'e', 'm']], .seqs [.lit ['d', 'e', 'n', 't', 'r', 'o', ' ', 'd', 'e', ' '], .number, .lit [' ', 'h']], .seqs [.lit ['d', 'e', 'n', 't', 'r', 'o', ' ', 'd', 'e', ' '], .number, .lit [' ', 's']], .seqs [.lit ['e', 'm', ' '], .number, .lit [' ', 's', 'e', 'g', 'u', 'n', 'd', 'o', 's']], .seqs [.lit ['h', 'a', ' '], .number, .lit [' ', 's', 'e', 'g', 'u', 'n', 'd', 'o', 's']], .seqs [.lit ['e', 'm', ' '], .number, .lit [' ', 'm', 'i', 'n', 'u', 't', 'o', 's']], .seqs [.lit ['e', 'm', ' '], .number, .lit [' ', 's', 'e', 'g', 'u', 'n', 'd', 'o']], .seqs [.lit ['e', 'm', ' '], .number, .lit [' ', 's', 'e', 'm', 'a', 'n', 'a', 's']], .seqs [.lit ['h', 'a', ' '], .number, .lit [' ', 'm', 'i', 'n', 'u', 't', 'o', 's']], .seqs [.lit ['h', 'a', ' '], .number, .lit [' ', 's', 'e', 'g', 'u', 'n', 'd', 'o']], .seqs [.lit ['h', 'a', ' '], .number, .lit [' ', 's', 'e', 'm', 'a', 'n', 'a', 's']], .seqs [.lit ['e', 'm', ' '], .number, .lit [' ', 'm', 'i', 'n', 'u', 't', 'o']], .seqs [.lit ['e', 'm', ' '], .number, .lit [' ', 's', 'e', 'm', 'a', 'n', 'a']], .seqs [.lit ['h', 'a', ' '], .number, .lit [' ', 'm', 'i', 'n', 'u', 't', 'o']], .seqs [.lit ['h', 'a', ' '], .number, .lit [' ', 's', 'e', 'm', 'a', 'n', 'a']], .seqs [.lit ['e', 'm', ' '], .number, .lit [' ', 'h', 'o', 'r', 'a', 's']], .seqs [.lit ['e', 'm', ' '], .number, .lit [' ', 'm', 'e', 's', 'e', 's']], .seqs [.lit ['h', 'a', ' '], .number, .lit [' ', 'h', 'o', 'r', 'a', 's']], .seqs [.lit ['h', 'a', ' '], .number, .lit [' ', 'm', 'e', 's', 'e', 's']], .seqs [.lit ['e', 'm', ' '], .number, .lit [' ', 'a', 'n', 'o', 's']], .seqs [.lit ['e', 'm', ' '], .number, .lit [' ', 'd', 'i', 'a', 's']], .seqs [.lit ['e', 'm', ' '], .number, .lit [' ', 'h', 'o', 'r', 'a']], .seqs [.lit ['e', 'm', ' '], .number, .lit [' ', 'm', 'i', 'n', 's']], .seqs [.lit ['e', 'm', ' '], .number, .lit [' ', 's', 'e', 'g', 's']], .seqs [.lit ['h', 'a', ' '], .number, .lit [' ', 'a', 'n', 'o', 's']], .seqs [.lit ['h', 'a', ' '], .number, .lit [' ', 'd', 'i', 'a', 's']], .seqs [.lit ['h', 'a', ' '], .number, .lit [' ', 'h', 'o', 'r', 'a']], .seqs [.lit ['h', 'a', ' '], .number, .lit [' ', 'm', 'i', 'n', 's']], .seqs [.lit ['e', 'm', ' '], .number, .lit [' ', 'a', 'n', 'o']], .seqs [.lit ['e', 'm', ' '], .number, .lit [' ', 'd', 'i', 'a']], .seqs [.lit ['e', 'm', ' '], .number, .lit [' ', 'm', 'e', 's']], .seqs [.lit ['e', 'm', ' '], .number, .lit [' ', 'm', 'i', 'n']], .seqs [.lit ['e', 'm', ' '], .number, .lit [' ', 's', 'e', 'g']], .seqs [.lit ['e', 'm', ' '], .number, .lit [' ', 's', 'e', 'm']], .seqs [.lit ['h', 'a', ' '], .number, .lit [' ', 'a', 'n', 'o']], .seqs [.lit ['h', 'a', ' '], .number, .lit [' ', 'd', 'i', 'a']], .seqs [.lit ['h', 'a', ' '], .number, .lit [' ', 'm', 'e', 's']], .seqs [.lit ['h', 'a', ' '], .number, .lit [' ', 'm', 'i', 'n']], .seqs [.lit ['h', 'a', ' '], .number, .lit [' ', 's', 'e', 'g']], .seqs [.lit ['h', 'a', ' '], .number, .lit [' ', 's', 'e', 'm']], .seqs [.lit ['e', 'm', ' '], .number, .lit [' ', 'h']], .seqs [.lit ['h', 'a', ' '], .number, .lit [' ', 'h']], .seqs [.lit ['h', 'a', ' '], .number, .lit [' ', 's']]]), .eos]),
  knownWords :=
   [['p', 'r', 'o', 'x', 'i', 'm', 'a', ' ', 's', 'e', 'm', 'a', 'n', 'a'], ['s', 'e', 'm', 'a', 'n', 'a', ' ', 'p', 'a', 's', 's', 'a', 'd', 'a'], ['s', 'e', 'g', 'u', 'n', 'd', 'a', '-', 'f', 'e', 'i', 'r', 'a'], ['q', 'u', 'a', 'r', 't', 'a', '-', 'f', 'e', 'i', 'r', 'a'], ['q', 'u', 'i', 'n', 't', 'a', '-', 'f', 'e', 'i', 'r', 'a'], ['a', 'n', 'o', ' ', 'p', 'a', 's', 's', 'a', 'd', 'o'], ['e', 's', 't', 'a', ' ', 's', 'e', 'm', 'a', 'n', 'a'], ['e', 's', 't', 'e', ' ', 'm', 'i', 'n', 'u', 't', 'o'], ['m', 'e', 's', ' ', 'p', 'a', 's', 's', 'a', 'd', 'o'], ['p', 'r', 'o', 'x', 'i', 'm', 'o', ' ', 'a', 'n', 'o'], ['p', 'r', 'o', 'x', 'i', 'm', 'o', ' ', 'm', 'e', 's'], ['s', 'e', 'x', 't', 'a', '-', 'f', 'e', 'i', 'r', 'a'], ['t', 'e', 'r', 'c', 'a', '-', 'f', 'e', 'i', 'r', 'a'], ['a', 'n', 't', 'e', 'o', 'n', 't', 'e', 'm'], ['e', 's', 't', 'a', ' ', 'h', 'o', 'r', 'a'], ['f', 'e', 'v', 'e', 'r', 'e', 'i', 'r', 'o'], ['s', 'e', 'p', 't', 'e', 'm', 'b', 'r', 'o'], ['d', 'a', ' ', 'm', 'a', 'n', 'h', 'a'], ['d', 'a', ' ', 't', 'a', 'r', 'd', 'e'], ['d', 'e', 'z', 'e', 'm', 'b', 'r', 'o'], ['e', 's', 't', 'e', ' ', 'a', 'n', 'o'], ['e', 's', 't', 'e', ' ', 'm', 'e', 's'], ['n', 'o', 'v', 'e', 'm', 'b', 'r', 'o'], ['s', 'e', 'g', 'u', 'n', 'd', 'o', 's'], ['s', 'e', 't', 'e', 'm', 'b', 'r', 'o'], ['d', 'o', 'm', 'i', 'n', 'g', 'o'], ['j', 'a', 'n', 'e', 'i', 'r', 'o'], ['m', 'i', 'n', 'u', 't', 'o', 's'], ['o', 'u', 't', 'u', 'b', 'r', 'o'], ['s', 'e', 'g', 'u', 'n', 'd', 'a'], ['s', 'e', 'g', 'u', 'n', 'd', 'o'], ['s', 'e', 'm', 'a', 'n', 'a', 's'], ['a', 'g', 'o', 's', 't', 'o'], ['a', 'm', 'a', 'n', 'h', 'a'], ['m', 'i', 'n', 'u', 't', 'o'], ['q', 'u', 'a', 'r', 't', 'a'], ['q', 'u', 'i', 'n', 't', 'a'], ['s', 'a', 'b', 'a', 'd', 'o'], ['s', 'e', 'm', 'a', 'n', 'a'], ['a', 'b', 'r', 'i', 'l'], ['a', 'g', 'o', 'r', 'a'], ['a', 't', 'r', 'a', 's'], ['c', 'e', 'r', 'c', 'a'], ['h', 'o', 'r', 'a', 's'], ['j', 'u', 'l', 'h', 'o'], ['j', 'u', 'n', 'h', 'o'], ['m', 'a', 'n', 'h', 'a'], ['m', 'a', 'r', 'c', 'o'], ['m', 'e', 's', 'e', 's'], ['o', 'n', 't', 'e', 'm'], ['s', 'e', 'x', 't', 'a'], ['t', 'a', 'r', 'd', 'e'], ['t', 'e', 'r', 'c', 'a'], ['a', 'n', 'o', 's'], ['d', 'i', 'a', 's'], ['h', 'o', 'j', 'e'], ['h', 'o', 'r', 'a'], ['m', 'a', 'i', 'o'], ['a', 'b', 'r'], ['a', 'g', 'o'], ['a', 'n', 'o'], ['d', 'e', 'z'], ['d', 'i', 'a'], ['d', 'o', 'm'], ['f', 'e', 'v'], ['g', 'm', 't'], ['j', 'a', 'n'], ['j', 'u', 'l'], ['j', 'u', 'n'], ['m', 'a', 'i'], ['m', 'a', 'r'], ['m', 'e', 's'], ['m', 'i', 'n'], ['n', 'o', 'v'], ['o', 'u', 't'], ['q', 'u', 'a'], ['q', 'u', 'i'], ['s', 'a', 'b'], ['s', 'e', 'g'], ['s', 'e', 'm'], ['s', 'e', 't'], ['s', 'e', 'x'], ['t', 'e', 'r'], ['u', 't', 'c'], ['a', 'm'], ['a', 's'], ['d', 'e'], ['e', 'm'], ['h', 'a'], ['p', 'm'], [' '], ['\''], ['+'], [','], ['-'], ['.'], ['/'], [':'], [';'], ['@'], ['['], [']'], ['e'], ['h'], ['m'], ['s'], ['z'], ['|']] }

end Verif.Data
