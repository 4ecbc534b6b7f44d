import Verif.Data.Dicts
/-! GENERATED by tools/gen_pats.py from /repo/internal/data; do not edit. -/
set_option autoImplicit false
set_option maxRecDepth 100000
namespace Verif.Data
open Verif.Model

/-- internal/data/ckb.go: `ckb_Locale`. -/
def ckbLang : LangData := { ckbDict with
  knownWords :=
   [['ک', 'ا', 'ن', 'و', 'و', 'ن', 'ی', ' ', 'د', 'و', 'و', 'ە', 'م'], ['ت', 'ش', 'ر', 'ی', 'ن', 'ی', ' ', 'د', 'و', 'و', 'ە', 'م'], ['ت', 'ش', 'ر', 'ی', 'ن', 'ی', ' ', 'ی', 'ە', 'ک', 'ە', 'م'], ['ک', 'ا', 'ن', 'و', 'ن', 'ی', ' ', 'ی', 'ە', 'ک', 'ە', 'م'], ['t', 'h', 'i', 's', ' ', 'm', 'i', 'n', 'u', 't', 'e'], ['l', 'a', 's', 't', ' ', 'm', 'o', 'n', 't', 'h'], ['n', 'e', 'x', 't', ' ', 'm', 'o', 'n', 't', 'h'], ['t', 'h', 'i', 's', ' ', 'm', 'o', 'n', 't', 'h'], ['l', 'a', 's', 't', ' ', 'w', 'e', 'e', 'k'], ['l', 'a', 's', 't', ' ', 'y', 'e', 'a', 'r'], ['n', 'e', 'x', 't', ' ', 'w', 'e', 'e', 'k'], ['n', 'e', 'x', 't', ' ', 'y', 'e', 'a', 'r'], ['t', 'h', 'i', 's', ' ', 'h', 'o', 'u', 'r'], ['t', 'h', 'i', 's', ' ', 'w', 'e', 'e', 'k'], ['t', 'h', 'i', 's', ' ', 'y', 'e', 'a', 'r'], ['y', 'e', 's', 't', 'e', 'r', 'd', 'a', 'y'], ['پ', 'ێ', 'ن', 'ج', 'ش', 'ە', 'م', 'م', 'ە'], ['چ', 'و', 'ا', 'ر', 'ش', 'ە', 'م', 'م', 'ە'], ['t', 'o', 'm', 'o', 'r', 'r', 'o', 'w'], ['ح', 'و', 'ز', 'ە', 'ی', 'ر', 'ا', 'ن'], ['د', 'و', 'و', 'ش', 'ە', 'م', 'م', 'ە'], ['ی', 'ە', 'ک', 'ش', 'ە', 'م', 'م', 'ە'], ['س', 'ێ', 'ش', 'ە', 'م', 'م', 'ە'], ['ي', 'ە', 'ی', 'ل', 'و', 'و', 'ل'], ['m', 'i', 'n', 'u', 't', 'e'], ['s', 'e', 'c', 'o', 'n', 'd'], ['ت', 'ە', 'م', 'و', 'و', 'ز'], ['m', 'o', 'n', 't', 'h'], ['t', 'o', 'd', 'a', 'y'], ['ش', 'و', 'ب', 'ا', 'ت'], ['ش', 'ە', 'م', 'م', 'ە'], ['ن', 'ی', 'س', 'ا', 'ن'], ['ي', 'ا', 'ز', 'ا', 'ر'], ['ي', 'ا', 'ی', 'ا', 'ر'], ['ھ', 'ە', 'ی', 'ن', 'ی'], ['h', 'o', 'u', 'r'], ['w', 'e', 'e', 'k'], ['y', 'e', 'a', 'r'], ['d', 'a', 'y'], ['g', 'm', 't'], ['n', 'o', 'w'], ['u', 't', 'c'], ['ي', 'ا', 'ب'], ['a', 'm'], ['p', 'm'], ['ب', 'ن'], ['د', 'ن'], [' '], ['\''], ['+'], [','], ['-'], ['.'], ['/'], [':'], [';'], ['@'], ['['], [']'], ['z'], ['|']] }

/-- internal/data/ckb.go: `ckb_IR_Locale`. -/
def ckb_IRLang : LangData := ckb_IRDict

/-- internal/data/cs.go: `cs_Locale`. -/
def csLang : LangData := { csDict with
  simplifications :=
   [(.seqs [.grp 1 (.alts [.bos, .noWord]), .lit ['t', 'e', 'd'], .grp 2 (.alts [.eos, .noWord])], [.ref 1, .lit ['0', ' ', 's', 'e', 'k', 'u', 'n', 'd', 'a'], .ref 2])],
  relativeRegexes :=
   [(.seqs [.lit ['p', 'r', 'e', 'd', ' '], .grp 1 (.number), .lit [' ', 's', 'e', 'k', 'u', 'n', 'd', 'a', 'm', 'i']], [.ref 1, .lit [' ', 's', 'e', 'c', 'o', 'n', 'd', ' ', 'a', 'g', 'o']]),
    (.seqs [.lit ['p', 'r', 'e', 'd', ' '], .grp 1 (.number), .lit [' ', 'h', 'o', 'd', 'i', 'n', 'a', 'm', 'i']], [.ref 1, .lit [' ', 'h', 'o', 'u', 'r', ' ', 'a', 'g', 'o']]),
    (.seqs [.lit ['p', 'r', 'e', 'd', ' '], .grp 1 (.number), .lit [' ', 'm', 'i', 'n', 'u', 't', 'a', 'm', 'i']], [.ref 1, .lit [' ', 'm', 'i', 'n', 'u', 't', 'e', ' ', 'a', 'g', 'o']]),
    (.seqs [.lit ['p', 'r', 'e', 'd', ' '], .grp 1 (.number), .lit [' ', 's', 'e', 'k', 'u', 'n', 'd', 'o', 'u']], [.ref 1, .lit [' ', 's', 'e', 'c', 'o', 'n', 'd', ' ', 'a', 'g', 'o']]),
    (.seqs [.lit ['p', 'r', 'e', 'd', ' '], .grp 1 (.number), .lit [' ', 'h', 'o', 'd', 'i', 'n', 'o', 'u']], [.ref 1, .lit [' ', 'h', 'o', 'u', 'r', ' ', 'a', 'g', 'o']]),
    (.seqs [.lit ['p', 'r', 'e', 'd', ' '], .grp 1 (.number), .lit [' ', 'm', 'e', 's', 'i', 'c', 'e', 'm']], [.ref 1, .lit [' ', 'm', 'o', 'n', 't', 'h', ' ', 'a', 'g', 'o']]),
    (.seqs [.lit ['p', 'r', 'e', 'd', ' '], .grp 1 (.number), .lit [' ', 'm', 'i', 'n', 'u', 't', 'o', 'u']], [.ref 1, .lit [' ', 'm', 'i', 'n', 'u', 't', 'e', ' ', 'a', 'g', 'o']]),
    (.seqs [.lit ['p', 'r', 'e', 'd', ' '], .grp 1 (.number), .lit [' ', 'm', 'e', 's', 'i', 'c', 'i']], [.ref 1, .lit [' ', 'm', 'o', 'n', 't', 'h', ' ', 'a', 'g', 'o']]),
    (.seqs [.lit ['p', 'r', 'e', 'd', ' '], .grp 1 (.number), .lit [' ', 't', 'y', 'd', 'n', 'e', 'm']], [.ref 1, .lit [' ', 'w', 'e', 'e', 'k', ' ', 'a', 'g', 'o']]),
    (.seqs [.lit ['p', 'r', 'e', 'd', ' '], .grp 1 (.number), .lit [' ', 'r', 'o', 'k', 'e', 'm']], [.ref 1, .lit [' ', 'y', 'e', 'a', 'r', ' ', 'a', 'g', 'o']]),
    (.seqs [.lit ['p', 'r', 'e', 'd', ' '], .grp 1 (.number), .lit [' ', 't', 'y', 'd', 'n', 'y']], [.ref 1, .lit [' ', 'w', 'e', 'e', 'k', ' ', 'a', 'g', 'o']]),
    (.seqs [.lit ['z', 'a', ' '], .grp 1 (.number), .lit [' ', 's', 'e', 'k', 'u', 'n', 'd', 'u']], [.lit ['i', 'n', ' '], .ref 1, .lit [' ', 's', 'e', 'c', 'o', 'n', 'd']]),
    (.seqs [.lit ['p', 'r', 'e', 'd', ' '], .grp 1 (.number), .lit [' ', 'd', 'n', 'e', 'm']], [.ref 1, .lit [' ', 'd', 'a', 'y', ' ', 'a', 'g', 'o']]),
    (.seqs [.lit ['p', 'r', 'e', 'd', ' '], .grp 1 (.number), .lit [' ', 'l', 'e', 't', 'y']], [.ref 1, .lit [' ', 'y', 'e', 'a', 'r', ' ', 'a', 'g', 'o']]),
    (.seqs [.lit ['z', 'a', ' '], .grp 1 (.number), .lit [' ', 'h', 'o', 'd', 'i', 'n', 'u']], [.lit ['i', 'n', ' '], .ref 1, .lit [' ', 'h', 'o', 'u', 'r']]),
    (.seqs [.lit ['z', 'a', ' '], .grp 1 (.number), .lit [' ', 'm', 'e', 's', 'i', 'c', 'u']], [.lit ['i', 'n', ' '], .ref 1, .lit [' ', 'm', 'o', 'n', 't', 'h']]),
    (.seqs [.lit ['z', 'a', ' '], .grp 1 (.number), .lit [' ', 'm', 'i', 'n', 'u', 't', 'u']], [.lit ['i', 'n', ' '], .ref 1, .lit [' ', 'm', 'i', 'n', 'u', 't', 'e']]),
    (.seqs [.lit ['z', 'a', ' '], .grp 1 (.number), .lit [' ', 's', 'e', 'k', 'u', 'n', 'd']], [.lit ['i', 'n', ' '], .ref 1, .lit [' ', 's', 'e', 'c', 'o', 'n', 'd']]),
    (.seqs [.lit ['p', 'r', 'e', 'd', ' '], .grp 1 (.number), .lit [' ', 'd', 'n', 'y']], [.ref 1, .lit [' ', 'd', 'a', 'y', ' ', 'a', 'g', 'o']]),
    (.seqs [.lit ['p', 'r', 'e', 'd', ' '], .grp 1 (.number), .lit [' ', 'm', 'e', 's']], [.ref 1, .lit [' ', 'm', 'o', 'n', 't', 'h', ' ', 'a', 'g', 'o']]),
    (.seqs [.lit ['p', 'r', 'e', 'd', ' '], .grp 1 (.number), .lit [' ', 'm', 'i', 'n']], [.ref 1, .lit [' ', 'm', 'i', 'n', 'u', 't', 'e', ' ', 'a', 'g', 'o']]),
    (.seqs [.lit ['p', 'r', 'e', 'd', ' '], .grp 1 (.number), .lit [' ', 't', 'y', 'd']], [.ref 1, .lit [' ', 'w', 'e', 'e', 'k', ' ', 'a', 'g', 'o']]),
    (.seqs [.lit ['z', 'a', ' '], .grp 1 (.number), .lit [' ', 'h', 'o', 'd', 'i', 'n']], [.lit ['i', 'n', ' '], .ref 1, .lit [' ', 'h', 'o', 'u', 'r']]),
    (.seqs [.lit ['z', 'a', ' '], .grp 1 (.number), .lit [' ', 'm', 'e', 's', 'i', 'c']], [.lit ['i', 'n', ' '], .ref 1, .lit [' ', 'm', 'o', 'n', 't', 'h']]),
    (.seqs [.lit ['z', 'a', ' '], .grp 1 (.number), .lit [' ', 'm', 'i', 'n', 'u', 't']], [.lit ['i', 'n', ' '], .ref 1, .lit [' ', 'm', 'i', 'n', 'u', 't', 'e']]),
    (.seqs [.lit ['z', 'a', ' '], .grp 1 (.number), .lit [' ', 't', 'y', 'd', 'e', 'n']], [.lit ['i', 'n', ' '], .ref 1, .lit [' ', 'w', 'e', 'e', 'k']]),
    (.seqs [.lit ['z', 'a', ' '], .grp 1 (.number), .lit [' ', 't', 'y', 'd', 'n', 'u']], [.lit ['i', 'n', ' '], .ref 1, .lit [' ', 'w', 'e', 'e', 'k']]),
    (.seqs [.lit ['p', 'r', 'e', 'd', ' '], .grp 1 (.number), .lit [' ', 'h']], [.ref 1, .lit [' ', 'h', 'o', 'u', 'r', ' ', 'a', 'g', 'o']]),
    (.seqs [.lit ['p', 'r', 'e', 'd', ' '], .grp 1 (.number), .lit [' ', 'l']], [.ref 1, .lit [' ', 'y', 'e', 'a', 'r', ' ', 'a', 'g', 'o']]),
    (.seqs [.lit ['p', 'r', 'e', 'd', ' '], .grp 1 (.number), .lit [' ', 'r']], [.ref 1, .lit [' ', 'y', 'e', 'a', 'r', ' ', 'a', 'g', 'o']]),
    (.seqs [.lit ['p', 'r', 'e', 'd', ' '], .grp 1 (.number), .lit [' ', 's']], [.ref 1, .lit [' ', 's', 'e', 'c', 'o', 'n', 'd', ' ', 'a', 'g', 'o']]),
    (.seqs [.lit ['z', 'a', ' '], .grp 1 (.number), .lit [' ', 'd', 'e', 'n']], [.lit ['i', 'n', ' '], .ref 1, .lit [' ', 'd', 'a', 'y']]),
    (.seqs [.lit ['z', 'a', ' '], .grp 1 (.number), .lit [' ', 'd', 'n', 'i']], [.lit ['i', 'n', ' '], .ref 1, .lit [' ', 'd', 'a', 'y']]),
    (.seqs [.lit ['z', 'a', ' '], .grp 1 (.number), .lit [' ', 'l', 'e', 't']], [.lit ['i', 'n', ' '], .ref 1, .lit [' ', 'y', 'e', 'a', 'r']]),
    (.seqs [.lit ['z', 'a', ' '], .grp 1 (.number), .lit [' ', 'm', 'e', 's']], [.lit ['i', 'n', ' '], .ref 1, .lit [' ', 'm', 'o', 'n', 't', 'h']]),
    (.seqs [.lit ['z', 'a', ' '], .grp 1 (.number), .lit [' ', 'm', 'i', 'n']], [.lit ['i', 'n', ' '], .ref 1, .lit [' ', 'm', 'i', 'n', 'u', 't', 'e']]),
    (.seqs [.lit ['z', 'a', ' '], .grp 1 (.number), .lit [' ', 'r', 'o', 'k']], [.lit ['i', 'n', ' '], .ref 1, .lit [' ', 'y', 'e', 'a', 'r']]),
    (.seqs [.lit ['z', 'a', ' '], .grp 1 (.number), .lit [' ', 't', 'y', 'd']], [.lit ['i', 'n', ' '], .ref 1, .lit [' ', 'w', 'e', 'e', 'k']]),
    (.seqs [.lit ['z', 'a', ' '], .grp 1 (.number), .lit [' ', 'h']], [.lit ['i', 'n', ' '], .ref 1, .lit [' ', 'h', 'o', 'u', 'r']]),
    (.seqs [.lit ['z', 'a', ' '], .grp 1 (.number), .lit [' ', 'l']], [.lit ['i', 'n', ' '], .ref 1, .lit [' ', 'y', 'e', 'a', 'r']]),
    (.seqs [.lit ['z', 'a', ' '], .grp 1 (.number), .lit [' ', 'r']], [.lit ['i', 'n', ' '], .ref 1, .lit [' ', 'y', 'e', 'a', 'r']]),
    (.seqs [.lit ['z', 'a', ' '], .grp 1 (.number), .lit [' ', 's']], [.lit ['i', 'n', ' '], .ref 1, .lit [' ', 's', 'e', 'c', 'o', 'n', 'd']])],
  rxCombined := some (.seqs [.grp 1 (.alts [.bos, .cls true [.letter, .mark, .digit], .lit ['_']]), .grp 2 (.alts [.seqs [.lit ['p', 'r', 'e', 'd', ' '], .number, .lit [' ', 's', 'e', 'k', 'u', 'n', 'd', 'a', 'm', 'i']], .seqs [.lit ['p', 'r', 'e', 'd', ' '], .number, .lit [' ', 'h', 'o', 'd', 'i', 'n', 'a', 'm', 'i']], .seqs [.lit ['p', 'r', 'e', 'd', ' '], .number, .lit [' ', 'm', 'i', 'n', 'u', 't', 'a', 'm', 'i']], .seqs [.lit ['p', 'r', 'e', 'd', ' '], .number, .lit [' ', 's', 'e', 'k', 'u', 'n', 'd', 'o', 'u']], .seqs [.lit ['p', 'r', 'e', 'd', ' '], .number, .lit [' ', 'h', 'o', 'd', 'i', 'n', 'o', 'u']], .seqs [.lit ['p', 'r', 'e', 'd', ' '], .number, .lit [' ', 'm', 'e', 's', 'i', 'c', 'e', 'm']], .seqs [.lit ['p', 'r', 'e', 'd', ' '], .number, .lit [' ', 'm', 'i', 'n', 'u', 't', 'o', 'u']], .seqs [.lit ['p', 'r', 'e', 'd', ' '], .number, .lit [' ', 'm', 'e', 's', 'i', 'c', 'i']], .seqs [.lit ['p', 'r', 'e', 'd', ' '], .number, .lit [' ', 't', 'y', 'd', 'n', 'e', 'm']], .seqs [.lit ['p', 'r', 'e', 'd', ' '], .number, .lit [' ', 'r', 'o', 'k', 'e', 'm']], .seqs [.lit ['p', 'r', 'e', 'd', ' '], .number, .lit [' ', 't', 'y', 'd', 'n', 'y']], .seqs [.lit ['z', 'a', ' '], .number, .lit [' ', 's', 'e', 'k', 'u', 'n', 'd', 'u']], .seqs [.lit ['p', 'r', 'e', 'd', ' '], .number, .lit [' ', 'd', 'n', 'e', 'm']], .seqs [.lit ['p', 'r', 'e', 'd', ' '], .number, .lit [' ', 'l', 'e', 't', 'y']], .seqs [.lit ['z', 'a', ' '], .number, .lit [' ', 'h', 'o', 'd', 'i', 'n', 'u']], .seqs [.lit ['z', 'a', ' '], .number, .lit [' ', 'm', 'e', 's', 'i', 'c', 'u']], .seqs [.lit ['z', 'a', ' '], .number, .lit [' ', 'm', 'i', 'n', 'u', 't', 'u']], .seqs [.lit ['z', 'a', ' '], .number, .lit [' ', 's', 'e', 'k', 'u', 'n', 'd']], .seqs [.lit ['p', 'r', 'e', 'd', ' '], .number, .lit [' ', 'd', 'n', 'y']], .seqs [.lit ['p', 'r', 'e', 'd', ' '], .number, .lit [' ', 'm', 'e', 's']], .seqs [.lit ['p', 'r', 'e', 'd', ' '], .number, .lit [' ', 'm', 'i', 'n']], .seqs [.lit ['p', 'r', 'e', 'd', ' '], .number, .lit [' ', 't', 'y', 'd']], .seqs [.lit ['z', 'a', ' '], .number, .lit [' ', 'h', 'o', 'd', 'i', 'n']], .seqs [.lit ['z', 'a', ' '], .number, .lit [' ', 'm', 'e', 's', 'i', 'c']], .seqs [.lit ['z', 'a', ' '], .number, .lit [' ', 'm', 'i', 'n', 'u', 't']], .seqs [.lit ['z', 'a', ' '], .number, .lit [' ', 't', 'y', 'd', 'e', 'n']], .seqs [.lit ['z', 'a', ' '], .number, .lit [' ', 't', 'y', 'd', 'n', 'u']], .seqs [.lit ['p', 'r', 'e', 'd', ' '], .number, .lit [' ', 'h']], .seqs [.lit ['p', 'r', 'e', 'd', ' '], .number, .lit [' ', 'l']], .seqs [.lit ['p', 'r', 'e', 'd', ' '], .number, .lit [' ', 'r']], .seqs [.lit ['p', 'r', 'e', 'd', ' '], .number, .lit [' ', 's']], .seqs [.lit ['z', 'a', ' '], .number, .lit [' ', 'd', 'e', 'n']], .seqs [.lit ['z', 'a', ' '], .number, .lit [' ', 'd', 'n', 'i']], .seqs [.lit ['z', 'a', ' '], .number, .lit [' ', 'l', 'e', 't']], .seqs [.lit ['z', 'a', ' '], .number, .lit [' ', 'm', 'e', 's']], .seqs [.lit ['z', 'a', ' '], .number, .lit [' ', 'm', 'i', 'n']], .seqs [.lit ['z', 'a', ' '], .number, .lit [' ', 'r', 'o', 'k']], .seqs [.lit ['z', 'a', ' '], .number, .lit [' ', 't', 'y', 'd']], .seqs [.lit ['z', 'a', ' '], .number, .lit [' ', 'h']], .seqs [.lit ['z', 'a', ' '], .number, .lit [' ', 'l']], .seqs [.lit ['z', 'a', ' '], .number, .lit [' ', 'r']], .seqs [.lit ['z', 'a', ' '], .number, .lit [' ', 's']]]), .grp 3 (.alts [.eos, .cls true [.letter, .mark, .digit], .lit ['_']])], 3),
  rxExact := some (.seqs [.bos, .grp 1 (.alts [.seqs [.lit ['p', 'r', 'e', 'd', ' '], .number, .lit [' ', 's', 'e', 'k', 'u', 'n', 'd', 'a', 'm', 'i']], .seqs [.lit ['p', 'r', 'e', 'd', ' '], .number, .lit [' ', 'h', 'o', 'd', 'i', 'n', 'a', 'm', 'i']], .seqs [.lit ['p', 'r', 'e', 'd', ' '], .number, .lit [' ', 'm', 'i', 'n', 'u', 't', 'a', 'm', 'i']], .seqs [.lit ['p', 'r', 'e', 'd', ' '], .number, .lit [' ', 's', 'e', 'k', 'u', 'n', 'd', 'o', 'u']], .seqs [.lit ['p', 'r', 'e', 'd', ' '], .number, .lit [' ', 'h', 'o', 'd', 'i', 'n', 'o', 'u']], .seqs [.lit ['p', 'r', 'e', 'd', ' '], .number, .lit [' ', 'm', 'e', 's', 'i', 'c', 'e', 'm']], .seqs [.lit ['p', 'r', 'e', 'd', ' '], .number, .lit [' ', 'm', 'i', 'n', 'u', 't', 'o', 'u']], .seqs [.lit ['p', 'r', 'e', 'd', ' '], .number, .lit [' ', 'm', 'e', 's', 'i', 'c', 'i']], .seqs [.lit ['p', 'r', 'e', 'd', ' '], .number, .lit [' ', 't', 'y', 'd', 'n', 'e', 'm']], .seqs [.lit ['p', 'r', 'e', 'd', ' '], .number, .lit [' ', 'r', 'o', 'k', 'e', 'm']], .seqs [.lit ['p', 'r', 'e', 'd', ' '], .number, .lit [' ', 't', 'y', 'd', 'n', 'y']], .seqs [.lit ['z', 'a', ' '], .number, .lit [' ', 's', 'e', 'k', 'u', 'n', 'd', 'u']], .seqs [.lit ['p', 'r', 'e', 'd', ' '], .number, .lit [' ', 'd', 'n', 'e', 'm']], .seqs [.lit ['p', 'r', 'e', 'd', ' '], .number, .lit [' ', 'l', 'e', 't', 'y']], .seqs [.lit ['z', 'a', ' '], .number, .lit [' ', 'h', 'o', 'd', 'i', 'n', 'u']], .seqs [.lit ['z', 'a', ' '], .number, .lit [' ', 'm', 'e', 's', 'i', 'c', 'u']], .seqs [.lit ['z', 'a', ' '], .number, .lit [' ', 'm', 'i', 'n', 'u', 't', 'u']], .seqs [.lit ['z', 'a', ' '], .number, .lit [' ', 's', 'e', 'k', 'u', 'n', 'd']], .seqs [.lit ['p', 'r', 'e', 'd', ' '], .number, .lit [' ', 'd', 'n', 'y']], .seqs [.lit ['p', 'r', 'e', 'd', ' '], .number, .lit [' ', 'm', 'e', 's']], .seqs [.lit ['p', 'r', 'e', 'd', ' '], .number, .lit [' ', 'm', 'i', 'n']], .seqs [.lit ['p', 'r', 'e', 'd', ' '], .number, .lit [' ', 't', 'y', 'd']], .seqs [.lit ['z', 'a', ' '], .number, .lit [' ', 'h', 'o', 'd', 'i', 'n']], .seqs [.lit ['z', 'a', ' '], .number, .lit [' ', 'm', 'e', 's', 'i', 'c']], .seqs [.lit ['z', 'a', ' '], .number, .lit [' ', 'm', 'i', 'n', 'u', 't']], .seqs [.lit ['z', 'a', ' '], .number, .lit [' ', 't', 'y', 'd', 'e', 'n']], .seqs [.lit ['z', 'a', ' '], .number, .lit [' ', 't', 'y', 'd', 'n', 'u']], .seqs [.lit ['p', 'r', 'e', 'd', ' '], .number, .lit [' ', 'h']], .seqs [.lit ['p', 'r', 'e', 'd', ' '], .number, .lit [' ', 'l']], .seqs [.lit ['p', 'r', 'e', 'd', ' '], .number, .lit [' ', 'r']], .seqs [.lit ['p', 'r', 'e', 'd', ' '], .number, .lit [' ', 's']], .seqs [.lit ['z', 'a', ' '], .number, .lit [' ', 'd', 'e', 'n']], .seqs [.lit ['z', 'a', ' '], .number, .lit [' ', 'd', 'n', 'i']], .seqs [.lit ['z', 'a', ' '], .number, .lit [' ', 'l', 'e', 't']], .seqs [.lit ['z', 'a', ' '], .number, .lit [' ', 'm', 'e', 's']], .seqs [.lit ['z', 'a', ' '], .number, .lit [' ', 'm', 'i', 'n']], .seqs [.lit ['z', 'a', ' '], .number, .lit [' ', 'r', 'o', 'k']], .seqs [.lit ['z', 'a', ' '], .number, .lit [' ', 't', 'y', 'd']], .seqs [.lit ['z', 'a', ' '], .number, .lit [' ', 'h']], .seqs [.lit ['z', 'a', ' '], .number, .lit [' ', 'l']], .seqs [.lit ['z', 'a', ' '], .number, .lit [' ', 'r']], .seqs [.lit ['z', 'a', ' '], .number, .lit [' ', 's']]]), .eos]),
  knownWords :=
   [['m', 'i', 'n', 'u', 'l', 'y', ' ', 'm', 'e', 's', 'i', 'c'], ['m', 'i', 'n', 'u', 'l', 'y', ' ', 't', 'y', 'd', 'e', 'n'], ['p', 'r', 'i', 's', 't', 'i', ' ', 'm', 'e', 's', 'i', 'c'], ['p', 'r', 'i', 's', 't', 'i', ' ', 't', 'y', 'd', 'e', 'n'], ['p', 'r', 'e', 'd', 'e', 'v', 'c', 'i', 'r', 'e', 'm'], ['t', 'e', 'n', 't', 'o', ' ', 'm', 'e', 's', 'i', 'c'], ['t', 'e', 'n', 't', 'o', ' ', 't', 'y', 'd', 'e', 'n'], ['t', 'u', 't', 'o', ' ', 'h', 'o', 'd', 'i', 'n', 'u'], ['t', 'u', 't', 'o', ' ', 'm', 'i', 'n', 'u', 't', 'u'], ['m', 'i', 'n', 'u', 'l', 'y', ' ', 'r', 'o', 'k'], ['m', 'i', 'n', 'u', 'l', 'y', ' ', 't', 'y', 'd'], ['p', 'r', 'i', 's', 't', 'i', ' ', 'r', 'o', 'k'], ['p', 'r', 'i', 's', 't', 'i', ' ', 't', 'y', 'd'], ['l', 'i', 's', 't', 'o', 'p', 'a', 'd', 'u'], ['p', 'r', 'i', 'b', 'l', 'i', 'z', 'n', 'e'], ['t', 'e', 'n', 't', 'o', ' ', 'r', 'o', 'k'], ['t', 'e', 'n', 't', 'o', ' ', 't', 'y', 'd'], ['c', 'e', 'r', 'v', 'e', 'n', 'c', 'e'], ['c', 'e', 'r', 'v', 'e', 'n', 'e', 'c'], ['h', 'o', 'd', 'i', 'n', 'a', 'm', 'i'], ['l', 'i', 's', 't', 'o', 'p', 'a', 'd'], ['m', 'i', 'n', 'u', 't', 'a', 'm', 'i'], ['p', 'r', 'o', 's', 'i', 'n', 'c', 'e'], ['p', 'r', 'o', 's', 'i', 'n', 'e', 'c'], ['c', 't', 'v', 'r', 't', 'e', 'k'], ['h', 'o', 'd', 'i', 'n', 'o', 'u'], ['m', 'e', 's', 'i', 'c', 'e', 'm'], ['p', 'o', 'n', 'd', 'e', 'l', 'i'], ['s', 'e', 'k', 'u', 'n', 'd', 'a'], ['s', 'e', 'k', 'u', 'n', 'd', 'y'], ['v', 't', 'e', 'r', 'i', 'n', 'a'], ['v', 't', 'e', 'r', 'i', 'n', 'y'], ['b', 'r', 'e', 'z', 'e', 'n'], ['b', 'r', 'e', 'z', 'n', 'a'], ['c', 'e', 'r', 'v', 'e', 'n'], ['c', 'e', 'r', 'v', 'n', 'a'], ['h', 'o', 'd', 'i', 'n', 'a'], ['h', 'o', 'd', 'i', 'n', 'u'], ['h', 'o', 'd', 'i', 'n', 'y'], ['k', 'v', 'e', 't', 'e', 'n'], ['k', 'v', 'e', 't', 'n', 'a'], ['m', 'e', 's', 'i', 'c', 'e'], ['m', 'e', 's', 'i', 'c', 'u'], ['m', 'i', 'n', 'u', 't', 'a'], ['m', 'i', 'n', 'u', 't', 'y'], ['n', 'e', 'd', 'e', 'l', 'e'], ['n', 'e', 'd', 'e', 'l', 'i'], ['s', 'e', 'k', 'u', 'n', 'd'], ['s', 'o', 'b', 'o', 't', 'a'], ['s', 'o', 'b', 'o', 't', 'u'], ['s', 't', 'r', 'e', 'd', 'a'], ['s', 't', 'r', 'e', 'd', 'u'], ['t', 'y', 'd', 'n', 'e', 'm'], ['v', 't', 'e', 'r', 'i', 'n'], ['d', 'u', 'b', 'e', 'n'], ['d', 'u', 'b', 'n', 'a'], ['h', 'o', 'd', 'i', 'n'], ['l', 'e', 'd', 'e', 'n'], ['l', 'e', 'd', 'n', 'a'], ['m', 'e', 's', 'i', 'c'], ['m', 'i', 'n', 'u', 't'], ['p', 'a', 't', 'e', 'k'], ['r', 'i', 'j', 'e', 'n'], ['r', 'i', 'j', 'n', 'a'], ['s', 'r', 'p', 'e', 'n'], ['s', 'r', 'p', 'n', 'a'], ['t', 'y', 'd', 'e', 'n'], ['t', 'y', 'd', 'n', 'u'], ['t', 'y', 'd', 'n', 'y'], ['u', 'n', 'o', 'r', 'a'], ['u', 't', 'e', 'r', 'y'], ['v', 'c', 'e', 'r', 'a'], ['z', 'i', 't', 'r', 'a'], ['d', 'n', 'e', 's'], ['n', 'y', 'n', 'i'], ['p', 'r', 'e', 'd'], ['r', 'o', 'k', 'u'], ['r', 'o', 'k', 'y'], ['u', 'n', 'o', 'r'], ['z', 'a', 'r', 'i'], ['b', 'r', 'e'], ['c', 'e', 'r'], ['c', 'r', 'c'], ['c', 'r', 'v'], ['c', 't', 'v'], ['c', 'v', 'c'], ['c', 'v', 'n'], ['d', 'e', 'n'], ['d', 'n', 'u'], ['d', 'n', 'y'], ['d', 'o', 'p'], ['d', 'u', 'b'], ['g', 'm', 't'], ['k', 'v', 'e'], ['l', 'e', 'd'], ['l', 'i', 's'], ['m', 'e', 's'], ['m', 'i', 'n'], ['n', 'e', 'd'], ['o', 'd', 'p'], ['p', 'a', 't'], ['p', 'o', 'n'], ['p', 'r', 'o'], ['r', 'i', 'j'], ['r', 'o', 'k'], ['s', 'o', 'b'], ['s', 'r', 'p'], ['s', 't', 'r'], ['t', 'y', 'd'], ['u', 'n', 'o'], ['u', 'n', 'r'], ['u', 't', 'c'], ['u', 't', 'e'], ['z', 'a', 'r'], ['a', 'm'], ['c', 't'], ['n', 'e'], ['p', 'a'], ['p', 'm'], ['p', 'o'], ['s', 'o'], ['s', 't'], ['u', 't'], ['v', 'e'], [' '], ['\''], ['+'], [','], ['-'], ['.'], ['/'], [':'], [';'], ['@'], ['['], [']'], ['h'], ['r'], ['s'], ['v'], ['z'], ['|']] }

/-- internal/data/cy.go: `cy_Locale`. -/
def cyLang : LangData := { cyDict with
  relativeRegexes :=
   [(.seqs [.grp 1 (.number), .lit [' ', 'o', ' ', 'f', 'l', 'y', 'n', 'y', 'd', 'd', 'o', 'e', 'd', 'd', ' ', 'y', 'n', ' ', 'o', 'l']], [.ref 1, .lit [' ', 'y', 'e', 'a', 'r', ' ', 'a', 'g', 'o']]),
    (.seqs [.grp 1 (.number), .lit [' ', 'd', 'i', 'w', 'r', 'n', 'o', 'd', ' ', 'y', 'n', ' ', 'o', 'l']], [.ref 1, .lit [' ', 'd', 'a', 'y', ' ', 'a', 'g', 'o']]),
    (.seqs [.grp 1 (.number), .lit [' ', 'w', 'y', 't', 'h', 'n', 'o', 's', ' ', 'y', 'n', ' ', 'o', 'l']], [.ref 1, .lit [' ', 'w', 'e', 'e', 'k', ' ', 'a', 'g', 'o']]),
    (.seqs [.lit ['y', 'm', 'h', 'e', 'n', ' '], .grp 1 (.number), .lit [' ', 'd', 'i', 'w', 'r', 'n', 'o', 'd']], [.lit ['i', 'n', ' '], .ref 1, .lit [' ', 'd', 'a', 'y']]),
    (.seqs [.lit ['y', 'm', 'h', 'e', 'n', ' '], .grp 1 (.number), .lit [' ', 'm', 'l', 'y', 'n', 'e', 'd', 'd']], [.lit ['i', 'n', ' '], .ref 1, .lit [' ', 'y', 'e', 'a', 'r']]),
    (.seqs [.lit ['y', 'm', 'h', 'e', 'n', ' '], .grp 1 (.number), .lit [' ', 'w', 'y', 't', 'h', 'n', 'o', 's']], [.lit ['i', 'n', ' '], .ref 1, .lit [' ', 'w', 'e', 'e', 'k']]),
    (.seqs [.grp 1 (.number), .lit [' ', 'e', 'i', 'l', 'i', 'a', 'd', ' ', 'y', 'n', ' ', 'o', 'l']], [.ref 1, .lit [' ', 's', 'e', 'c', 'o', 'n', 'd', ' ', 'a', 'g', 'o']]),
    (.seqs [.lit ['y', 'm', 'h', 'e', 'n', ' '], .grp 1 (.number), .lit [' ', 'e', 'i', 'l', 'i', 'a', 'd']], [.lit ['i', 'n', ' '], .ref 1, .lit [' ', 's', 'e', 'c', 'o', 'n', 'd']]),
    (.seqs [.grp 1 (.number), .lit [' ', 'm', 'u', 'n', 'u', 'd', ' ', 'y', 'n', ' ', 'o', 'l']], [.ref 1, .lit [' ', 'm', 'i', 'n', 'u', 't', 'e', ' ', 'a', 'g', 'o']]),
    (.seqs [.lit ['y', 'm', 'h', 'e', 'n', ' '], .grp 1 (.number), .lit [' ', 'm', 'u', 'n', 'u', 'd']], [.lit ['i', 'n', ' '], .ref 1, .lit [' ', 'm', 'i', 'n', 'u', 't', 'e']]),
    (.seqs [.grp 1 (.number), .lit [' ', 'a', 'w', 'r', ' ', 'y', 'n', ' ', 'o', 'l']], [.ref 1, .lit [' ', 'h', 'o', 'u', 'r', ' ', 'a', 'g', 'o']]),
    (.seqs [.grp 1 (.number), .lit [' ', 'm', 'i', 's', ' ', 'y', 'n', ' ', 'o', 'l']], [.ref 1, .lit [' ', 'm', 'o', 'n', 't', 'h', ' ', 'a', 'g', 'o']]),
    (.seqs [.grp 1 (.number), .lit [' ', 'm', 'u', 'n', ' ', 'y', 'n', ' ', 'o', 'l']], [.ref 1, .lit [' ', 'm', 'i', 'n', 'u', 't', 'e', ' ', 'a', 'g', 'o']]),
    (.seqs [.lit ['y', 'm', 'h', 'e', 'n', ' '], .grp 1 (.number), .lit [' ', 'a', 'w', 'r']], [.lit ['i', 'n', ' '], .ref 1, .lit [' ', 'h', 'o', 'u', 'r']]),
    (.seqs [.lit ['y', 'm', 'h', 'e', 'n', ' '], .grp 1 (.number), .lit [' ', 'm', 'i', 's']], [.lit ['i', 'n', ' '], .ref 1, .lit [' ', 'm', 'o', 'n', 't', 'h']]),
    (.seqs [.lit ['y', 'm', 'h', 'e', 'n', ' '], .grp 1 (.number), .lit [' ', 'm', 'u', 'n']], [.lit ['i', 'n', ' '], .ref 1, .lit [' ', 'm', 'i', 'n', 'u', 't', 'e']])],
  rxCombined := some (.seqs [.grp 1 (.alts [.bos, .cls true [.letter, .mark, .digit], .lit ['_']]), .grp 2 (.alts [.seqs [.number, .lit [' ', 'o', ' ', 'f', 'l', 'y', 'n', 'y', 'd', 'd', 'o', 'e', 'd', 'd', ' ', 'y', 'n', ' ', 'o', 'l']], .seqs [.number, .lit [' ', 'd', 'i', 'w', 'r', 'n', 'o', 'd', ' ', 'y', 'n', ' ', 'o', 'l']], .seqs [.number, .lit [' ', 'w', 'y', 't', 'h', 'n', 'o', 's', ' ', 'y', 'n', ' ', 'o', 'l']], .seqs [.lit ['y', 'm', 'h', 'e', 'n', ' '], .number, .lit [' ', 'd', 'i', 'w', 'r', 'n', 'o', 'd']], .seqs [.lit ['y', 'm', 'h', 'e', 'n', ' '], .number, .lit [' ', 'm', 'l', 'y', 'n', 'e', 'd', 'd']], .seqs [.lit ['y', 'm', 'h', 'e', 'n', ' '], .number, .lit [' ', 'w', 'y', 't', 'h', 'n', 'o', 's']], .seqs [.number, .lit [' ', 'e', 'i', 'l', 'i', 'a', 'd', ' ', 'y', 'n', ' ', 'o', 'l']], .seqs [.lit ['y', 'm', 'h', 'e', 'n', ' '], .number, .lit [' ', 'e', 'i', 'l', 'i', 'a', 'd']], .seqs [.number, .lit [' ', 'm', 'u', 'n', 'u', 'd', ' ', 'y', 'n', ' ', 'o', 'l']], .seqs [.lit ['y', 'm', 'h', 'e', 'n', ' '], .number, .lit [' ', 'm', 'u', 'n', 'u', 'd']], .seqs [.number, .lit [' ', 'a', 'w', 'r', ' ', 'y', 'n', ' ', 'o', 'l']], .seqs [.number, .lit [' ', 'm', 'i', 's', ' ', 'y', 'n', ' ', 'o', 'l']], .seqs [.number, .lit [' ', 'm', 'u', 'n', ' ', 'y', 'n', ' ', 'o', 'l']], .seqs [.lit ['y', 'm', 'h', 'e', 'n', ' '], .number, .lit [' ', 'a', 'w', 'r']], .seqs [.lit ['y', 'm', 'h', 'e', 'n', ' '], .number, .lit [' ', 'm', 'i', 's']], .seqs [.lit ['y', 'm', 'h', 'e', 'n', ' '], .number, .lit [' ', 'm', 'u', 'n']]]), .grp 3 (.alts [.eos, .cls true [.letter, .mark, .digit], .lit ['_']])], 3),
  rxExact := some (.seqs [.bos, .grp 1 (.alts [.seqs [.number, .lit [' ', 'o', ' ', 'f', 'l', 'y', 'n', 'y', 'd', 'd', 'o', 'e', 'd', 'd', ' ', 'y', 'n', ' ', 'o', 'l']], .seqs [.number, .lit [' ', 'd', 'i', 'w', 'r', 'n', 'o', 'd', ' ', 'y', 'n', ' ', 'o', 'l']], .seqs [.number, .lit [' ', 'w', 'y', 't', 'h', 'n', 'o', 's', ' ', 'y', 'n', ' ', 'o', 'l']], .seqs [.lit ['y', 'm', 'h', 'e', 'n', ' '], .number, .lit [' ', 'd', 'i', 'w', 'r', 'n', 'o', 'd']], .seqs [.lit ['y', 'm', 'h', 'e', 'n', ' '], .number, .lit [' ', 'm', 'l', 'y', 'n', 'e', 'd', 'd']], .seqs [.lit ['y', 'm', 'h', 'e', 'n', ' '], .number, .lit [' ', 'w', 'y', 't', 'h', 'n', 'o', 's']], .seqs [.number, .lit [' ', 'e', 'i', 'l', 'i', 'a', 'd', ' ', 'y', 'n', ' ', 'o', 'l']], .seqs [.lit ['y', 'm', 'h', 'e', 'n', ' '], .number, .lit [' ', 'e', 'i', 'l', 'i', 'a', 'd']], .seqs [.number, .lit [' ', 'm', 'u', 'n', 'u', 'd', ' ', 'y', 'n', ' ', 'o', 'l']], .seqs [.lit ['y', 'm', 'h', 'e', 'n', ' '], .number, .lit [' ', 'm', 'u', 'n', 'u', 'd']], .seqs [.number, .lit [' ', 'a', 'w', 'r', ' ', 'y', 'n', ' ', 'o', 'l']], .seqs [.number, .lit [' ', 'm', 'i', 's', ' ', 'y', 'n', ' ', 'o', 'l']], .seqs [.number, .lit [' ', 'm', 'u', 'n', ' ', 'y', 'n', ' ', 'o', 'l']], .seqs [.lit ['y', 'm', 'h', 'e', 'n', ' '], .number, .lit [' ', 'a', 'w', 'r']], .seqs [.lit ['y', 'm', 'h', 'e', 'n', ' '], .number, .lit [' ', 'm', 'i', 's']], .seqs [.lit ['y', 'm', 'h', 'e', 'n', ' '], .number, .lit [' ', 'm', 'u', 'n']]]), .eos]),
  knownWords :=
   [['w', 'y', 't', 'h', 'n', 'o', 's', ' ', 'd', 'd', 'i', 'w', 'e', 't', 'h', 'a', 'f'], ['b', 'l', 'w', 'y', 'd', 'd', 'y', 'n', ' ', 'n', 'e', 's', 'a', 'f'], ['y', 'r', ' ', 'w', 'y', 't', 'h', 'n', 'o', 's', ' ', 'h', 'o', 'n'], ['w', 'y', 't', 'h', 'n', 'o', 's', ' ', 'n', 'e', 's', 'a', 'f'], ['d', 'y', 'd', 'd', ' ', 'm', 'e', 'r', 'c', 'h', 'e', 'r'], ['m', 'i', 's', ' ', 'd', 'i', 'w', 'e', 't', 'h', 'a', 'f'], ['d', 'y', 'd', 'd', ' ', 'g', 'w', 'e', 'n', 'e', 'r'], ['d', 'y', 'd', 'd', ' ', 'm', 'a', 'w', 'r', 't', 'h'], ['d', 'y', 'd', 'd', ' ', 's', 'a', 'd', 'w', 'r', 'n'], ['y', ' ', 'f', 'u', 'n', 'u', 'd', ' ', 'h', 'o', 'n'], ['g', 'o', 'r', 'f', 'f', 'e', 'n', 'n', 'a', 'f'], ['y', 'r', ' ', 'a', 'w', 'r', ' ', 'h', 'o', 'n'], ['d', 'y', 'd', 'd', ' ', 'l', 'l', 'u', 'n'], ['m', 'i', 's', ' ', 'n', 'e', 's', 'a', 'f'], ['y', ' ', 'm', 'i', 's', ' ', 'h', 'w', 'n'], ['b', 'l', 'w', 'y', 'd', 'd', 'y', 'n'], ['c', 'h', 'w', 'e', 'f', 'r', 'o', 'r'], ['d', 'y', 'd', 'd', ' ', 'i', 'a', 'u'], ['d', 'y', 'd', 'd', ' ', 's', 'u', 'l'], ['t', 'a', 'c', 'h', 'w', 'e', 'd', 'd'], ['l', 'l', 'y', 'n', 'e', 'd', 'd'], ['m', 'e', 'h', 'e', 'f', 'i', 'n'], ['r', 'h', 'a', 'g', 'f', 'y', 'r'], ['w', 'y', 't', 'h', 'n', 'o', 's'], ['e', 'b', 'r', 'i', 'l', 'l'], ['e', 'i', 'l', 'i', 'a', 'd'], ['h', 'e', 'd', 'd', 'i', 'w'], ['h', 'y', 'd', 'r', 'e', 'f'], ['i', 'o', 'n', 'a', 'w', 'r'], ['m', 'a', 'w', 'r', 't', 'h'], ['c', 'h', 'w', 'e', 'f'], ['e', 'l', 'e', 'n', 'i'], ['g', 'o', 'r', 'f', 'f'], ['m', 'u', 'n', 'u', 'd'], ['y', 'f', 'o', 'r', 'y'], ['a', 'w', 's', 't'], ['d', 'd', 'o', 'e'], ['d', 'y', 'd', 'd'], ['g', 'w', 'e', 'n'], ['l', 'l', 'u', 'n'], ['m', 'e', 'd', 'i'], ['n', 'a', 'w', 'r'], ['r', 'h', 'a', 'g'], ['t', 'a', 'c', 'h'], ['a', 'w', 'r'], ['c', 'h', 'w'], ['e', 'b', 'r'], ['g', 'm', 't'], ['g', 'o', 'r'], ['g', 'w', 'e'], ['h', 'y', 'd'], ['i', 'a', 'u'], ['i', 'o', 'n'], ['m', 'a', 'i'], ['m', 'a', 'w'], ['m', 'e', 'h'], ['m', 'e', 'r'], ['m', 'i', 's'], ['m', 'u', 'n'], ['s', 'a', 'd'], ['s', 'u', 'l'], ['u', 't', 'c'], ['a', 'm'], ['b', 'l'], ['p', 'm'], ['y', 'b'], ['y', 'h'], [' '], ['\''], ['+'], [','], ['-'], ['.'], ['/'], [':'], [';'], ['@'], ['['], [']'], ['z'], ['|']] }

/-- internal/data/da.go: `da_Locale`. -/
def daLang : LangData := { daDict with
  abbreviations :=
   [['d'], ['k', 'l']],
  simplifications :=
   [(.seqs [.grp 1 (.alts [.bos, .noWord]), .lit ['e', 'n'], .grp 2 (.alts [.eos, .noWord])], [.ref 1, .lit ['1'], .ref 2]),
    (.seqs [.grp 1 (.alts [.bos, .noWord]), .lit ['e', 't'], .grp 2 (.alts [.eos, .noWord])], [.ref 1, .lit ['1'], .ref 2]),
    (.seqs [.grp 1 (.alts [.bos, .noWord]), .grp 2 (.number), .star (.cls false [.space]), .lit ['h', 'r'], .grp 3 (.opt (.lit ['s'])), .grp 4 (.alts [.eos, .noWord])], [.ref 1, .ref 2, .lit [' ', 't', 'i', 'm', 'e'], .ref 3, .ref 4]),
    (.seqs [.grp 1 (.alts [.bos, .noWord]), .grp 2 (.number), .star (.cls false [.space]), .lit ['m', 'i', 'n'], .grp 3 (.opt (.lit ['s'])), .grp 4 (.alts [.eos, .noWord])], [.ref 1, .ref 2, .lit [' ', 'm', 'i', 'n', 'u', 't'], .ref 3, .ref 4]),
    (.seqs [.grp 1 (.alts [.bos, .noWord]), .grp 2 (.number), .star (.cls false [.space]), .lit ['s', 'e', 'c'], .grp 3 (.opt (.lit ['s'])), .grp 4 (.alts [.eos, .noWord])], [.ref 1, .ref 2, .lit [' ', 's', 'e', 'k', 'u', 'n', 'd'], .ref 3, .ref 4]),
    (.seqs [.grp 1 (.alts [.bos, .noWord]), .lit ['m', 'i', 'd', 'd', 'a', 'g'], .grp 2 (.alts [.eos, .noWord])], [.ref 1, .lit ['1', '2', ':', '0', '0'], .ref 2]),
    (.seqs [.grp 1 (.alts [.bos, .noWord]), .lit ['m', 'i', 'd', 'n', 'a', 't'], .grp 2 (.alts [.eos, .noWord])], [.ref 1, .lit ['0', '0', ':', '0', '0'], .ref 2]),
    (.seqs [.grp 1 (.alts [.bos, .noWord]), .grp 2 (.number), .lit ['h'], .grp 3 (.number), .opt (.lit ['m']), .grp 4 (.alts [.eos, .noWord])], [.ref 1, .ref 2, .lit [':'], .ref 3, .ref 4]),
    (.seqs [.grp 1 (.alts [.bos, .noWord]), .lit ['m', 'i', 'n', 'd', 'r', 'e', ' ', 'e', 'n', 'd', ' ', '1', ' ', 'm', 'i', 'n', 'u', 't', ' ', 's', 'i', 'd', 'e', 'n'], .grp 2 (.alts [.eos, .noWord])], [.ref 1, .lit ['4', '5', ' ', 's', 'e', 'c', 'o', 'n', 'd', 's'], .ref 2])],
  relativeRegexes :=
   [(.seqs [.lit ['f', 'o', 'r', ' '], .grp 1 (.number), .lit [' ', 'm', 'i', 'n', 'u', 't', 't', 'e', 'r', ' ', 's', 'i', 'd', 'e', 'n']], [.ref 1, .lit [' ', 'm', 'i', 'n', 'u', 't', 'e', ' ', 'a', 'g', 'o']]),
    (.seqs [.lit ['f', 'o', 'r', ' '], .grp 1 (.number), .lit [' ', 's', 'e', 'k', 'u', 'n', 'd', 'e', 'r', ' ', 's', 'i', 'd', 'e', 'n']], [.ref 1, .lit [' ', 's', 'e', 'c', 'o', 'n', 'd', ' ', 'a', 'g', 'o']]),
    (.seqs [.lit ['f', 'o', 'r', ' '], .grp 1 (.number), .lit [' ', 'm', 'a', 'n', 'e', 'd', 'e', 'r', ' ', 's', 'i', 'd', 'e', 'n']], [.ref 1, .lit [' ', 'm', 'o', 'n', 't', 'h', ' ', 'a', 'g', 'o']]),
    (.seqs [.lit ['f', 'o', 'r', ' '], .grp 1 (.number), .lit [' ', 's', 'e', 'k', 'u', 'n', 'd', ' ', 's', 'i', 'd', 'e', 'n']], [.ref 1, .lit [' ', 's', 'e', 'c', 'o', 'n', 'd', ' ', 'a', 'g', 'o']]),
    (.seqs [.lit ['f', 'o', 'r', ' '], .grp 1 (.number), .lit [' ', 'm', 'a', 'n', 'e', 'd', ' ', 's', 'i', 'd', 'e', 'n']], [.ref 1, .lit [' ', 'm', 'o', 'n', 't', 'h', ' ', 'a', 'g', 'o']]),
    (.seqs [.lit ['f', 'o', 'r', ' '], .grp 1 (.number), .lit [' ', 'm', 'i', 'n', 'u', 't', ' ', 's', 'i', 'd', 'e', 'n']], [.ref 1, .lit [' ', 'm', 'i', 'n', 'u', 't', 'e', ' ', 'a', 'g', 'o']]),
    (.seqs [.lit ['f', 'o', 'r', ' '], .grp 1 (.number), .lit [' ', 't', 'i', 'm', 'e', 'r', ' ', 's', 'i', 'd', 'e', 'n']], [.ref 1, .lit [' ', 'h', 'o', 'u', 'r', ' ', 'a', 'g', 'o']]),
    (.seqs [.lit ['f', 'o', 'r', ' '], .grp 1 (.number), .lit [' ', 'd', 'a', 'g', 'e', ' ', 's', 'i', 'd', 'e', 'n']], [.ref 1, .lit [' ', 'd', 'a', 'y', ' ', 'a', 'g', 'o']]),
    (.seqs [.lit ['f', 'o', 'r', ' '], .grp 1 (.number), .lit [' ', 't', 'i', 'm', 'e', ' ', 's', 'i', 'd', 'e', 'n']], [.ref 1, .lit [' ', 'h', 'o', 'u', 'r', ' ', 'a', 'g', 'o']]),
    (.seqs [.lit ['f', 'o', 'r', ' '], .grp 1 (.number), .lit [' ', 'u', 'g', 'e', 'r', ' ', 's', 'i', 'd', 'e', 'n']], [.ref 1, .lit [' ', 'w', 'e', 'e', 'k', ' ', 'a', 'g', 'o']]),
    (.seqs [.lit ['f', 'o', 'r', ' '], .grp 1 (.number), .lit [' ', 'd', 'a', 'g', ' ', 's', 'i', 'd', 'e', 'n']], [.ref 1, .lit [' ', 'd', 'a', 'y', ' ', 'a', 'g', 'o']]),
    (.seqs [.lit ['f', 'o', 'r', ' '], .grp 1 (.number), .lit [' ', 'm', 'd', 'r', ' ', 's', 'i', 'd', 'e', 'n']], [.ref 1, .lit [' ', 'm', 'o', 'n', 't', 'h', ' ', 'a', 'g', 'o']]),
    (.seqs [.lit ['f', 'o', 'r', ' '], .grp 1 (.number), .lit [' ', 'm', 'i', 'n', ' ', 's', 'i', 'd', 'e', 'n']], [.ref 1, .lit [' ', 'm', 'i', 'n', 'u', 't', 'e', ' ', 'a', 'g', 'o']]),
    (.seqs [.lit ['f', 'o', 'r', ' '], .grp 1 (.number), .lit [' ', 's', 'e', 'k', ' ', 's', 'i', 'd', 'e', 'n']], [.ref 1, .lit [' ', 's', 'e', 'c', 'o', 'n', 'd', ' ', 'a', 'g', 'o']]),
    (.seqs [.lit ['f', 'o', 'r', ' '], .grp 1 (.number), .lit [' ', 'u', 'g', 'e', ' ', 's', 'i', 'd', 'e', 'n']], [.ref 1, .lit [' ', 'w', 'e', 'e', 'k', ' ', 'a', 'g', 'o']]),
    (.seqs [.lit ['f', 'o', 'r', ' '], .grp 1 (.number), .lit [' ', 'a', 'r', ' ', 's', 'i', 'd', 'e', 'n']], [.ref 1, .lit [' ', 'y', 'e', 'a', 'r', ' ', 'a', 'g', 'o']]),
    (.seqs [.lit ['f', 'o', 'r', ' '], .grp 1 (.number), .lit [' ', 'm', 'd', ' ', 's', 'i', 'd', 'e', 'n']], [.ref 1, .lit [' ', 'm', 'o', 'n', 't', 'h', ' ', 'a', 'g', 'o']]),
    (.seqs [.lit ['f', 'o', 'r', ' '], .grp 1 (.number), .lit [' ', 'm', 'i', 'n', 'u', 't', 't', 'e', 'r']], [.ref 1, .lit [' ', 'm', 'i', 'n', 'u', 't', 'e', ' ', 'a', 'g', 'o']]),
    (.seqs [.lit ['f', 'o', 'r', ' '], .grp 1 (.number), .lit [' ', 's', 'e', 'k', 'u', 'n', 'd', 'e', 'r']], [.ref 1, .lit [' ', 's', 'e', 'c', 'o', 'n', 'd', ' ', 'a', 'g', 'o']]),
    (.seqs [.lit ['o', 'm', ' '], .grp 1 (.number), .lit [' ', 'm', 'i', 'n', 'u', 't', 't', 'e', 'r']], [.lit ['i', 'n', ' '], .ref 1, .lit [' ', 'm', 'i', 'n', 'u', 't', 'e']]),
    (.seqs [.lit ['o', 'm', ' '], .grp 1 (.number), .lit [' ', 's', 'e', 'k', 'u', 'n', 'd', 'e', 'r']], [.lit ['i', 'n', ' '], .ref 1, .lit [' ', 's', 'e', 'c', 'o', 'n', 'd']]),
    (.seqs [.lit ['o', 'm', ' '], .grp 1 (.number), .lit [' ', 'm', 'a', 'n', 'e', 'd', 'e', 'r']], [.lit ['i', 'n', ' '], .ref 1, .lit [' ', 'm', 'o', 'n', 't', 'h']]),
    (.seqs [.lit ['f', 'o', 'r', ' '], .grp 1 (.number), .lit [' ', 't', 'i', 'm', 'e', 'r']], [.ref 1, .lit [' ', 'h', 'o', 'u', 'r', ' ', 'a', 'g', 'o']]),
    (.seqs [.lit ['o', 'm', ' '], .grp 1 (.number), .lit [' ', 's', 'e', 'k', 'u', 'n', 'd']], [.lit ['i', 'n', ' '], .ref 1, .lit [' ', 's', 'e', 'c', 'o', 'n', 'd']]),
    (.seqs [.lit ['o', 'm', ' '], .grp 1 (.number), .lit [' ', 'm', 'a', 'n', 'e', 'd']], [.lit ['i', 'n', ' '], .ref 1, .lit [' ', 'm', 'o', 'n', 't', 'h']]),
    (.seqs [.lit ['o', 'm', ' '], .grp 1 (.number), .lit [' ', 'm', 'i', 'n', 'u', 't']], [.lit ['i', 'n', ' '], .ref 1, .lit [' ', 'm', 'i', 'n', 'u', 't', 'e']]),
    (.seqs [.lit ['o', 'm', ' '], .grp 1 (.number), .lit [' ', 't', 'i', 'm', 'e', 'r']], [.lit ['i', 'n', ' '], .ref 1, .lit [' ', 'h', 'o', 'u', 'r']]),
    (.seqs [.lit ['f', 'o', 'r', ' '], .grp 1 (.number), .star (.cls false [.space]), .lit ['h']], [.ref 1, .lit [' ', 'h', 'o', 'u', 'r', ' ', 'a', 'g', 'o']]),
    (.seqs [.lit ['f', 'o', 'r', ' '], .grp 1 (.number), .star (.cls false [.space]), .lit ['m']], [.ref 1, .lit [' ', 'm', 'i', 'n', 'u', 't', 'e', ' ', 'a', 'g', 'o']]),
    (.seqs [.lit ['f', 'o', 'r', ' '], .grp 1 (.number), .star (.cls false [.space]), .lit ['s']], [.ref 1, .lit [' ', 's', 'e', 'c', 'o', 'n', 'd', ' ', 'a', 'g', 'o']]),
    (.seqs [.lit ['o', 'm', ' '], .grp 1 (.number), .lit [' ', 'd', 'a', 'g', 'e']], [.lit ['i', 'n', ' '], .ref 1, .lit [' ', 'd', 'a', 'y']]),
    (.seqs [.lit ['o', 'm', ' '], .grp 1 (.number), .lit [' ', 't', 'i', 'm', 'e']], [.lit ['i', 'n', ' '], .ref 1, .lit [' ', 'h', 'o', 'u', 'r']]),
    (.seqs [.lit ['o', 'm', ' '], .grp 1 (.number), .lit [' ', 'u', 'g', 'e', 'r']], [.lit ['i', 'n', ' '], .ref 1, .lit [' ', 'w', 'e', 'e', 'k']]),
    (.seqs [.lit ['o', 'm', ' '], .grp 1 (.number), .lit [' ', 'd', 'a', 'g']], [.lit ['i', 'n', ' '], .ref 1, .lit [' ', 'd', 'a', 'y']]),
    (.seqs [.lit ['o', 'm', ' '], .grp 1 (.number), .lit [' ', 'm', 'd', 'r']], [.lit ['i', 'n', ' '], .ref 1, .lit [' ', 'm', 'o', 'n', 't', 'h']]),
    (.seqs [.lit ['o', 'm', ' '], .grp 1 (.number), .lit [' ', 'm', 'i', 'n']], [.lit ['i', 'n', ' '], .ref 1, .lit [' ', 'm', 'i', 'n', 'u', 't', 'e']]),
    (.seqs [.lit ['o', 'm', ' '], .grp 1 (.number), .lit [' ', 's', 'e', 'k']], [.lit ['i', 'n', ' '], .ref 1, .lit [' ', 's', 'e', 'c', 'o', 'n', 'd']]),
    (.seqs [.lit ['o', 'm', ' '], .grp 1 (.number), .lit [' ', 'u', 'g', 'e']], [.lit ['i', 'n', ' '], .ref 1, .lit [' ', 'w', 'e', 'e', 'k']]),
    (.seqs [.lit ['o', 'm', ' '], .grp 1 (.number), .lit [' ', 'a', 'r']], [.lit ['i', 'n', ' '], .ref 1, .lit [' ', 'y', 'e', 'a', 'r']]),
    (.seqs [.lit ['o', 'm', ' '], .grp 1 (.number), .lit [' ', 'm', 'd']], [.lit ['i', 'n', ' '], .ref 1, .lit [' ', 'm', 'o', 'n', 't', 'h']])],
  rxCombined := some (.seqs [.grp 1 (.alts [.bos, .cls true [.letter, .mark, .digit], .lit ['_']]), .grp 2 (.alts [.seqs [.lit ['f', 'o', 'r', ' '], .number, .lit [' ', 'm', 'i', 'n', 'u', 't', 't', 'e', 'r', ' ', 's', 'i', 'd', 'e', 'n']], .seqs [.lit ['f', 'o', 'r', ' '], .number, .lit [' ', 's', 'e', 'k', 'u', 'n', 'd', 'e', 'r', ' ', 's', 'i', 'd', 'e', 'n']], .seqs [.lit ['f', 'o', 'r', ' '], .number, .lit [' ', 'm', 'a', 'n', 'e', 'd', 'e', 'r', ' ', 's', 'i', 'd', 'e', 'n']], .seqs [.lit ['f', 'o', 'r', ' '], .number, .lit [' ', 's', 'e', 'k', 'u', 'n', 'd', ' ', 's', 'i', 'd', 'e', 'n']], .seqs [.lit ['f', 'o', 'r', ' '], .number, .lit [' ', 'm', 'a', 'n', 'e', 'd', ' ', 's', 'i', 'd', 'e', 'n']], .seqs [.lit ['f', 'o', 'r', ' '], .number, .lit [' ', 'm', 'i', 'n', 'u', 't', ' ', 's', 'i', 'd', 'e', 'n']], .seqs [.lit ['f', 'o', 'r', ' '], .number, .lit [' ', 't', 'i', 'm', 'e', 'r', ' ', 's', 'i', 'd', 'e', 'n']], .seqs [.lit ['f', 'o', 'r', ' '], .number, .lit [' ', 'd', 'a', 'g', 'e', ' ', 's', 'i', 'd', 'e', 'n']], .seqs [.lit ['f', 'o', 'r', ' '], .number, .lit [' ', 't', 'i', 'm', 'e', ' ', 's', 'i', 'd', 'e', 'n']], .seqs [.lit ['f', 'o', 'r', ' '], .number, .lit [' ', 'u', 'g', 'e', 'r', ' ', 's', 'i', 'd', 'e', 'n']], .seqs [.lit ['f', 'o', 'r', ' '], .number, .lit [' ', 'd', 'a', 'g', ' ', 's', 'i', 'd', 'e', 'n']], .seqs [.lit ['f', 'o', 'r', ' '], .number, .lit [' ', 'm', 'd', 'r', ' ', 's', 'i', 'd', 'e', 'n']], .seqs [.lit ['f', 'o', 'r', ' '], .number, .lit [' ', 'm', 'i', 'n', ' ', 's', 'i', 'd', 'e', 'n']], .seqs [.lit ['f', 'o', 'r', ' '], .number, .lit [' ', 's', 'e', 'k', ' ', 's', 'i', 'd', 'e', 'n']], .seqs [.lit ['f', 'o', 'r', ' '], .number, .lit [' ', 'u', 'g', 'e', ' ', 's', 'i', 'd', 'e', 'n']], .seqs [.lit ['f', 'o', 'r', ' '], .number, .lit [' ', 'a', 'r', ' ', 's', 'i', 'd', 'e', 'n']], .seqs [.lit ['f', 'o', 'r', ' '], .number, .lit [' ', 'm', 'd', ' ', 's', 'i', 'd', 'e', 'n']], .seqs [.lit ['f', 'o', 'r', ' '], .number, .lit [' ', 'm', 'i', 'n', 'u', 't', 't', 'e', 'r']], .seqs [.lit ['f', 'o', 'r', ' '], .number, .lit [' ', 's', 'e', 'k', 'u', 'n', 'd', 'e', 'r']], .seqs [.lit ['o', 'm', ' '], .number, .lit [' ', 'm', 'i', 'n', 'u', 't', 't', 'e', 'r']], .seqs [.lit ['o', 'm', ' '], .number, .lit [' ', 's', 'e', 'k', 'u', 'n', 'd', 'e', 'r']], .seqs [.lit ['o', 'm', ' '], .number, .lit [' ', 'm', 'a', 'n', 'e', 'd', 'e', 'r']], .seqs [.lit ['f', 'o', 'r', ' '], .number, .lit [' ', 't', 'i', 'm', 'e', 'r']], .seqs [.lit ['o', 'm', ' '], .number, .lit [' ', 's', 'e', 'k', 'u', 'n', 'd']], .seqs [.lit ['o', 'm', ' '], .number, .lit [' ', 'm', 'a', 'n', 'e', 'd']], .seqs [.lit ['o', 'm', ' '], .number, .lit [' ', 'm', 'i', 'n', 'u', 't']], .seqs [.lit ['o', 'm', ' '], .number, .lit [' ', 't', 'i', 'm', 'e', 'r']], .seqs [.lit ['f', 'o', 'r', ' '], .number, .star (.cls false [.space]), .lit ['h']], .seqs [.lit ['f', 'o', 'r', ' '], .number, .star (.cls false [.space]), .lit ['m']], .seqs [.lit ['f', 'o', 'r', ' '], .number, .star (.cls false [.space]), .lit ['s']], .seqs [.lit ['o', 'm', ' '], .number, .lit [' ', 'd', 'a', 'g', 'e']], .seqs [.lit ['o', 'm', ' '], .number, .lit [' ', 't', 'i', 'm', 'e']], .seqs [.lit ['o', 'm', ' '], .number, .lit [' ', 'u', 'g', 'e', 'r']], .seqs [.lit ['o', 'm', ' '], .number, .lit [' ', 'd', 'a', 'g']], .seqs [.lit ['o', 'm', ' '], .number, .lit [' ', 'm', 'd', 'r']], .seqs [.lit ['o', 'm', ' '], .number, .lit [' ', 'm', 'i', 'n']], .seqs [.lit ['o', 'm', ' '], .number, .lit [' ', 's', 'e', 'k']], .seqs [.lit ['o', 'm', ' '], .number, .lit [' ', 'u', 'g', 'e']], .seqs [.lit ['o', 'm', ' '], .number, .lit [' ', 'a', 'r']], .seqs [.lit ['o', 'm', ' '], .number, .lit [' ', 'm', 'd']]]), .grp 3 (.alts [.eos, .cls true [.letter, .mark, .digit], .lit ['_']])], 3),
  rxExact := some (.seqs [.bos, .grp 1 (.alts [.seqs [.lit ['f', 'o', 'r', ' '], .number, .lit [' ', 'm', 'i', 'n', 'u', 't', 't', 'e', 'r', ' ', 's', 'i', 'd', 'e', 'n']], .seqs [.lit ['f', 'o', 'r', ' '], .number, .lit [' ', 's', 'e', 'k', 'u', 'n', 'd', 'e', 'r', ' ', 's', 'i', 'd', 'e', 'n']], .seqs [.lit ['f', 'o', 'r', ' '], .number, .lit [' ', 'm', 'a', 'n', 'e', 'd', 'e', 'r', ' ', 's', 'i', 'd', 'e', 'n']], .seqs [.lit ['f', 'o', 'r', ' '], .number, .lit [' ', 's', 'e', 'k', 'u', 'n', 'd', ' ', 's', 'i', 'd', 'e', 'n']], .seqs [.lit ['f', 'o', 'r', ' '], .number, .lit [' ', 'm', 'a', 'n', 'e', 'd', ' ', 's', 'i', 'd', 'e', 'n']], .seqs [.lit ['f', 'o', 'r', ' '], .number, .lit [' ', 'm', 'i', 'n', 'u', 't', ' ', 's', 'i', 'd', 'e', 'n']], .seqs [.lit ['f', 'o', 'r', ' '], .number, .lit [' ', 't', 'i', 'm', 'e', 'r', ' ', 's', 'i', 'd', 'e', 'n']], .seqs [.lit ['f', 'o', 'r', ' '], .number, .lit [' ', 'd', 'a', 'g', 'e', ' ', 's', 'i', 'd', 'e', 'n']], .seqs [.lit ['f', 'o', 'r', ' '], .number, .lit [' ', 't', 'i', 'm', 'e', ' ', 's', 'i', 'd', 'e', 'n']], .seqs [.lit ['f', 'o', 'r', ' '], .number, .lit [' ', 'u', 'g', 'e', 'r', ' ', 's', 'i', 'd', 'e', 'n']], .seqs [.lit ['f', 'o', 'r', ' '], .number, .lit [' ', 'd', 'a', 'g', ' ', 's', 'i', 'd', 'e', 'n']], .seqs [.lit ['f', 'o', 'r', ' '], .number, .lit [' ', 'm', 'd', 'r', ' ', 's', 'i', 'd', 'e', 'n']], .seqs [.lit ['f', 'o', 'r', ' '], .number, .lit [' ', 'm', 'i', 'n', ' ', 's', 'i', 'd', 'e', 'n']], .seqs [.lit ['f', 'o', 'r', ' '], .number, .lit [' ', 's', 'e', 'k', ' ', 's', 'i', 'd', 'e', 'n']], .seqs [.lit ['f', 'o', 'r', ' '], .number, .lit [' ', 'u', 'g', 'e', ' ', 's', 'i', 'd', 'e', 'n']], .seqs [.lit ['f', 'o', 'r', ' '], .number, .lit [' ', 'a', 'r', ' ', 's', 'i', 'd', 'e', 'n']], .seqs [.lit ['f', 'o', 'r', ' '], .number, .lit [' ', 'm', 'd', ' ', 's', 'i', 'd', 'e', 'n']], .seqs [.lit ['f', 'o', 'r', ' '], .number, .lit [' ', 'm', 'i', 'n', 'u', 't', 't', 'e', 'r']], .seqs [.lit ['f', 'o', 'r', ' '], .number, .lit [' ', 's', 'e', 'k', 'u', 'n', 'd', 'e', 'r']], .seqs [.lit ['o', 'm', ' '], .number, .lit [' ', 'm', 'i', 'n', 'u', 't', 't', 'e', 'r']], .seqs [.lit ['o', 'm', ' '], .number, .lit [' ', 's', 'e', 'k', 'u', 'n', 'd', 'e', 'r']], .seqs [.lit ['o', 'm', ' '], .number, .lit [' ', 'm', 'a', 'n', 'e', 'd', 'e', 'r']], .seqs [.lit ['f', 'o', 'r', ' '], .number, .lit [' ', 't', 'i', 'm', 'e', 'r']], .seqs [.lit ['o', 'm', ' '], .number, .lit [' ', 's', 'e', 'k', 'u', 'n', 'd']], .seqs [.lit ['o', 'm', ' '], .number, .lit [' ', 'm', 'a', 'n', 'e', 'd']], .seqs [.lit ['o', 'm', ' '], .number, .lit [' ', 'm', 'i', 'n', 'u', 't']], .seqs [.lit ['o', 'm', ' '], .number, .lit [' ', 't', 'i', 'm', 'e', 'r']], .seqs [.lit ['f', 'o', 'r', ' '], .number, .star (.cls false [.space]), .lit ['h']], .seqs [.lit ['f', 'o', 'r', ' '], .number, .star (.cls false [.space]), .lit ['m']], .seqs [.lit ['f', 'o', 'r', ' '], .number, .star (.cls false [.space]), .lit ['s']], .seqs [.lit ['o', 'm', ' '], .number, .lit [' ', 'd', 'a', 'g', 'e']], .seqs [.lit ['o', 'm', ' '], .number, .lit [' ', 't', 'i', 'm', 'e']], .seqs [.lit ['o', 'm', ' '], .number, .lit [' ', 'u', 'g', 'e', 'r']], .seqs [.lit ['o', 'm', ' '], .number, .lit [' ', 'd', 'a', 'g']], .seqs [.lit ['o', 'm', ' '], .number, .lit [' ', 'm', 'd', 'r']], .seqs [.lit ['o', 'm', ' '], .number, .lit [' ', 'm', 'i', 'n']], .seqs [.lit ['o', 'm', ' '], .number, .lit [' ', 's', 'e', 'k']], .seqs [.lit ['o', 'm', ' '], .number, .lit [' ', 'u', 'g', 'e']], .seqs [.lit ['o', 'm', ' '], .number, .lit [' ', 'a', 'r']], .seqs [.lit ['o', 'm', ' '], .number, .lit [' ', 'm', 'd']]]), .eos]),
  knownWords :=
   [['i', ' ', 'd', 'e', 't', ' ', 'k', 'o', 'm', 'm', 'e', 'n', 'd', 'e', ' ', 'm', 'i', 'n', 'u', 't'], ['i', ' ', 'd', 'e', 'n', ' ', 'k', 'o', 'm', 'm', 'e', 'n', 'd', 'e', ' ', 't', 'i', 'm', 'e'], ['s', 'i', 'd', 's', 't', 'e', ' ', 'm', 'a', 'n', 'e', 'd'], ['d', 'e', 'n', 'n', 'e', ' ', 'm', 'a', 'n', 'e', 'd'], ['n', 'æ', 's', 't', 'e', ' ', 'm', 'a', 'n', 'e', 'd'], ['s', 'i', 'd', 's', 't', 'e', ' ', 'u', 'g', 'e'], ['d', 'e', 'n', 'n', 'e', ' ', 'u', 'g', 'e'], ['n', 'æ', 's', 't', 'e', ' ', 'u', 'g', 'e'], ['s', 'e', 'p', 't', 'e', 'm', 'b', 'e', 'r'], ['s', 'i', 'd', 's', 't', 'e', ' ', 'a', 'r'], ['s', 'i', 'd', 's', 't', 'e', ' ', 'm', 'd'], ['d', 'e', 'c', 'e', 'm', 'b', 'e', 'r'], ['d', 'e', 'n', 'n', 'e', ' ', 'm', 'd'], ['i', ' ', 'm', 'o', 'r', 'g', 'e', 'n'], ['m', 'i', 'n', 'u', 't', 't', 'e', 'r'], ['n', 'o', 'v', 'e', 'm', 'b', 'e', 'r'], ['n', 'æ', 's', 't', 'e', ' ', 'a', 'r'], ['n', 'æ', 's', 't', 'e', ' ', 'm', 'd'], ['s', 'e', 'k', 'u', 'n', 'd', 'e', 'r'], ['f', 'e', 'b', 'r', 'u', 'a', 'r'], ['m', 'a', 'n', 'e', 'd', 'e', 'r'], ['o', 'k', 't', 'o', 'b', 'e', 'r'], ['t', 'i', 'r', 's', 'd', 'a', 'g'], ['t', 'o', 'r', 's', 'd', 'a', 'g'], ['a', 'u', 'g', 'u', 's', 't'], ['f', 'r', 'e', 'd', 'a', 'g'], ['j', 'a', 'n', 'u', 'a', 'r'], ['l', 'ø', 'r', 'd', 'a', 'g'], ['m', 'a', 'n', 'd', 'a', 'g'], ['o', 'n', 's', 'd', 'a', 'g'], ['s', 'e', 'k', 'u', 'n', 'd'], ['s', 'ø', 'n', 'd', 'a', 'g'], ['a', 'p', 'r', 'i', 'l'], ['c', 'i', 'r', 'k', 'a'], ['i', ' ', 'd', 'a', 'g'], ['i', ' ', 'g', 'a', 'r'], ['m', 'a', 'n', 'e', 'd'], ['m', 'a', 'r', 't', 's'], ['m', 'i', 'n', 'u', 't'], ['s', 'i', 'd', 'e', 'n'], ['t', 'i', 'm', 'e', 'r'], ['d', 'a', 'g', 'e'], ['i', ' ', 'a', 'r'], ['j', 'u', 'l', 'i'], ['j', 'u', 'n', 'i'], ['t', 'i', 'm', 'e'], ['u', 'g', 'e', 'r'], ['a', 'p', 'r'], ['a', 'u', 'g'], ['d', 'a', 'g'], ['d', 'e', 'c'], ['f', 'e', 'b'], ['f', 'r', 'e'], ['g', 'm', 't'], ['j', 'a', 'n'], ['j', 'u', 'l'], ['j', 'u', 'n'], ['k', 'l', '.'], ['l', 'ø', 'r'], ['m', 'a', 'j'], ['m', 'a', 'n'], ['m', 'a', 'r'], ['m', 'i', 'n'], ['n', 'o', 'v'], ['o', 'k', 't'], ['o', 'n', 's'], ['s', 'e', 'k'], ['s', 'e', 'p'], ['s', 'ø', 'n'], ['t', 'i', 'r'], ['t', 'o', 'r'], ['u', 'g', 'e'], ['u', 't', 'c'], ['a', 'm'], ['a', 'r'], ['d', '.'], ['k', 'l'], ['m', 'd'], ['n', 'u'], ['p', 'm'], [' '], ['\''], ['+'], [','], ['-'], ['.'], ['/'], [':'], [';'], ['@'], ['['], [']'], ['i'], ['s'], ['t'], ['z'], ['|']] }

/-- internal/data/da.go: `da_GL_Locale`. -/
def da_GLLang : LangData := da_GLDict

/-- internal/data/dav.go: `dav_Locale`. -/
def davLang : LangData := { davDict with
  knownWords :=
   [['m', 'o', 'r', 'i', ' ', 'g', 'h', 'w', 'a', ' ', 'i', 'k', 'u', 'm', 'i', ' ', 'n', 'a', ' ', 'i', 'm', 'w', 'e', 'r', 'i'], ['m', 'o', 'r', 'i', ' ', 'g', 'h', 'w', 'a', ' ', 'i', 'k', 'u', 'm', 'i', ' ', 'n', 'a', ' ', 'i', 'w', 'i'], ['m', 'o', 'r', 'i', ' ', 'g', 'h', 'w', 'a', ' ', 'k', 'a', 'r', 'a', 'n', 'd', 'a', 'd', 'u'], ['m', 'o', 'r', 'i', ' ', 'g', 'h', 'w', 'a', ' ', 'm', 'f', 'u', 'n', 'g', 'a', 'd', 'e'], ['m', 'o', 'r', 'i', ' ', 'g', 'h', 'w', 'a', ' ', 'w', 'u', 'n', 'y', 'a', 'n', 'y', 'a'], ['k', 'u', 'r', 'a', 'm', 'u', 'k', 'a', ' ', 'j', 'i', 'm', 'w', 'e', 'r', 'i'], ['m', 'o', 'r', 'i', ' ', 'g', 'h', 'w', 'a', ' ', 'i', 'k', 'e', 'n', 'd', 'a'], ['m', 'o', 'r', 'i', ' ', 'g', 'h', 'w', 'a', ' ', 'i', 'm', 'b', 'i', 'r', 'i'], ['m', 'o', 'r', 'i', ' ', 'g', 'h', 'w', 'a', ' ', 'k', 'a', 'd', 'a', 'd', 'u'], ['m', 'o', 'r', 'i', ' ', 'g', 'h', 'w', 'a', ' ', 'k', 'a', 's', 'a', 'n', 'u'], ['k', 'u', 'r', 'a', 'm', 'u', 'k', 'a', ' ', 'k', 'a', 'd', 'a', 'd', 'u'], ['k', 'u', 'r', 'a', 'm', 'u', 'k', 'a', ' ', 'k', 'a', 's', 'a', 'n', 'u'], ['m', 'o', 'r', 'i', ' ', 'g', 'h', 'w', 'a', ' ', 'i', 'k', 'u', 'm', 'i'], ['i', 't', 'u', 'k', 'u', ' ', 'j', 'a', ' ', 'j', 'u', 'm', 'w', 'a'], ['m', 'o', 'r', 'i', ' ', 'g', 'h', 'w', 'a', ' ', 'k', 'a', 'n', 'a'], ['m', 'o', 'r', 'i', ' ', 'g', 'h', 'w', 'a', ' ', 'k', 'a', 'w', 'i'], ['k', 'u', 'r', 'a', 'm', 'u', 'k', 'a', ' ', 'k', 'a', 'n', 'a'], ['k', 'u', 'r', 'a', 'm', 'u', 'k', 'a', ' ', 'k', 'a', 'w', 'i'], ['k', 'i', 'f', 'u', 'l', 'a', ' ', 'n', 'g', 'u', 'w', 'o'], ['t', 'h', 'i', 's', ' ', 'm', 'i', 'n', 'u', 't', 'e'], ['l', 'a', 's', 't', ' ', 'm', 'o', 'n', 't', 'h'], ['l', 'u', 'm', 'a', ' ', 'l', 'w', 'a', ' ', 'k'], ['l', 'u', 'm', 'a', ' ', 'l', 'w', 'a', ' ', 'p'], ['n', 'e', 'x', 't', ' ', 'm', 'o', 'n', 't', 'h'], ['t', 'h', 'i', 's', ' ', 'm', 'o', 'n', 't', 'h'], ['l', 'a', 's', 't', ' ', 'w', 'e', 'e', 'k'], ['l', 'a', 's', 't', ' ', 'y', 'e', 'a', 'r'], ['n', 'e', 'x', 't', ' ', 'w', 'e', 'e', 'k'], ['n', 'e', 'x', 't', ' ', 'y', 'e', 'a', 'r'], ['t', 'h', 'i', 's', ' ', 'h', 'o', 'u', 'r'], ['t', 'h', 'i', 's', ' ', 'w', 'e', 'e', 'k'], ['t', 'h', 'i', 's', ' ', 'y', 'e', 'a', 'r'], ['s', 'e', 'k', 'u', 'n', 'd', 'e'], ['d', 'a', 'k', 'i', 'k', 'a'], ['i', 'd', 'i', 'm', 'e'], ['i', 't', 'u', 'k', 'u'], ['k', 'e', 's', 'h', 'o'], ['m', 'w', 'a', 'k', 'a'], ['i', 'g', 'u', 'o'], ['j', 'u', 'm', 'a'], ['m', 'o', 'r', 'i'], ['g', 'm', 't'], ['i', 'k', 'e'], ['i', 'k', 'u'], ['i', 'm', 'b'], ['i', 'm', 'w'], ['i', 'w', 'i'], ['j', 'i', 'm'], ['j', 'u', 'm'], ['k', 'a', 'd'], ['k', 'a', 'n'], ['k', 'a', 'r'], ['k', 'a', 's'], ['k', 'a', 'w'], ['m', 'f', 'u'], ['n', 'g', 'u'], ['n', 'o', 'w'], ['s', 'a', 'a'], ['u', 't', 'c'], ['w', 'u', 'n'], ['a', 'm'], ['p', 'm'], [' '], ['\''], ['+'], [','], ['-'], ['.'], ['/'], [':'], [';'], ['@'], ['['], [']'], ['z'], ['|']] }

/-- internal/data/de.go: `de_Locale`. -/
def deLang : LangData := { deDict with
  simplifications :=
   [(.seqs [.grp 1 (.alts [.bos, .noWord]), .lit ['e', 'i', 'n', 'e', 'r'], .grp 2 (.alts [.eos, .noWord])], [.ref 1, .lit ['1'], .ref 2]),
    (.seqs [.grp 1 (.alts [.bos, .noWord]), .lit ['e', 'i', 'n', 'e', 'm'], .grp 2 (.alts [.eos, .noWord])], [.ref 1, .lit ['1'], .ref 2]),
    (.seqs [.grp 1 (.alts [.bos, .noWord]), .lit ['e', 'i', 'n'], .grp 2 (.alts [.eos, .noWord])], [.ref 1, .lit ['1'], .ref 2]),
    (.seqs [.grp 1 (.alts [.bos, .noWord]), .lit ['z', 'w', 'e', 'i'], .grp 2 (.alts [.eos, .noWord])], [.ref 1, .lit ['2'], .ref 2]),
    (.seqs [.grp 1 (.alts [.bos, .noWord]), .lit ['d', 'r', 'e', 'i'], .grp 2 (.alts [.eos, .noWord])], [.ref 1, .lit ['3'], .ref 2]),
    (.seqs [.grp 1 (.alts [.bos, .noWord]), .lit ['v', 'i', 'e', 'r'], .grp 2 (.alts [.eos, .noWord])], [.ref 1, .lit ['4'], .ref 2]),
    (.seqs [.grp 1 (.alts [.bos, .noWord]), .lit ['f', 'u', 'n', 'f'], .grp 2 (.alts [.eos, .noWord])], [.ref 1, .lit ['5'], .ref 2]),
    (.seqs [.grp 1 (.alts [.bos, .noWord]), .lit ['s', 'e', 'c', 'h', 's'], .grp 2 (.alts [.eos, .noWord])], [.ref 1, .lit ['6'], .ref 2]),
    (.seqs [.grp 1 (.alts [.bos, .noWord]), .lit ['s', 'i', 'e', 'b', 'e', 'n'], .grp 2 (.alts [.eos, .noWord])], [.ref 1, .lit ['7'], .ref 2]),
    (.seqs [.grp 1 (.alts [.bos, .noWord]), .lit ['a', 'c', 'h', 't'], .grp 2 (.alts [.eos, .noWord])], [.ref 1, .lit ['8'], .ref 2]),
    (.seqs [.grp 1 (.alts [.bos, .noWord]), .lit ['n', 'e', 'u', 'n'], .grp 2 (.alts [.eos, .noWord])], [.ref 1, .lit ['9'], .ref 2]),
    (.seqs [.grp 1 (.alts [.bos, .noWord]), .lit ['z', 'e', 'h', 'n'], .grp 2 (.alts [.eos, .noWord])], [.ref 1, .lit ['1', '0'], .ref 2]),
    (.seqs [.grp 1 (.alts [.bos, .noWord]), .lit ['e', 'l', 'f'], .grp 2 (.alts [.eos, .noWord])], [.ref 1, .lit ['1', '1'], .ref 2]),
    (.seqs [.grp 1 (.alts [.bos, .noWord]), .lit ['z', 'w', 'o', 'l', 'f'], .grp 2 (.alts [.eos, .noWord])], [.ref 1, .lit ['1', '2'], .ref 2])],
  relativeRegexes :=
   [(.seqs [.lit ['v', 'o', 'r', ' '], .grp 1 (.number), .lit [' ', 's', 'e', 'k', 'u', 'n', 'd', 'e', 'n']], [.ref 1, .lit [' ', 's', 'e', 'c', 'o', 'n', 'd', ' ', 'a', 'g', 'o']]),
    (.seqs [.lit ['i', 'n', ' '], .grp 1 (.number), .lit [' ', 's', 'e', 'k', 'u', 'n', 'd', 'e', 'n']], [.lit ['i', 'n', ' '], .ref 1, .lit [' ', 's', 'e', 'c', 'o', 'n', 'd']]),
    (.seqs [.lit ['v', 'o', 'r', ' '], .grp 1 (.number), .lit [' ', 'm', 'i', 'n', 'u', 't', 'e', 'n']], [.ref 1, .lit [' ', 'm', 'i', 'n', 'u', 't', 'e', ' ', 'a', 'g', 'o']]),
    (.seqs [.lit ['v', 'o', 'r', ' '], .grp 1 (.number), .lit [' ', 'm', 'o', 'n', 'a', 't', 'e', 'n']], [.ref 1, .lit [' ', 'm', 'o', 'n', 't', 'h', ' ', 'a', 'g', 'o']]),
    (.seqs [.lit ['v', 'o', 'r', ' '], .grp 1 (.number), .lit [' ', 's', 'e', 'k', 'u', 'n', 'd', 'e']], [.ref 1, .lit [' ', 's', 'e', 'c', 'o', 'n', 'd', ' ', 'a', 'g', 'o']]),
    (.seqs [.lit ['v', 'o', 'r', ' '], .grp 1 (.number), .lit [' ', 's', 't', 'u', 'n', 'd', 'e', 'n']], [.ref 1, .lit [' ', 'h', 'o', 'u', 'r', ' ', 'a', 'g', 'o']]),
    (.seqs [.lit ['i', 'n', ' '], .grp 1 (.number), .lit [' ', 'm', 'i', 'n', 'u', 't', 'e', 'n']], [.lit ['i', 'n', ' '], .ref 1, .lit [' ', 'm', 'i', 'n', 'u', 't', 'e']]),
    (.seqs [.lit ['i', 'n', ' '], .grp 1 (.number), .lit [' ', 'm', 'o', 'n', 'a', 't', 'e', 'n']], [.lit ['i', 'n', ' '], .ref 1, .lit [' ', 'm', 'o', 'n', 't', 'h']]),
    (.seqs [.lit ['i', 'n', ' '], .grp 1 (.number), .lit [' ', 's', 'e', 'k', 'u', 'n', 'd', 'e']], [.lit ['i', 'n', ' '], .ref 1, .lit [' ', 's', 'e', 'c', 'o', 'n', 'd']]),
    (.seqs [.lit ['i', 'n', ' '], .grp 1 (.number), .lit [' ', 's', 't', 'u', 'n', 'd', 'e', 'n']], [.lit ['i', 'n', ' '], .ref 1, .lit [' ', 'h', 'o', 'u', 'r']]),
    (.seqs [.lit ['v', 'o', 'r', ' '], .grp 1 (.number), .lit [' ', 'j', 'a', 'h', 'r', 'e', 'n']], [.ref 1, .lit [' ', 'y', 'e', 'a', 'r', ' ', 'a', 'g', 'o']]),
    (.seqs [.lit ['v', 'o', 'r', ' '], .grp 1 (.number), .lit [' ', 'm', 'i', 'n', 'u', 't', 'e']], [.ref 1, .lit [' ', 'm', 'i', 'n', 'u', 't', 'e', ' ', 'a', 'g', 'o']]),
    (.seqs [.lit ['v', 'o', 'r', ' '], .grp 1 (.number), .lit [' ', 's', 't', 'u', 'n', 'd', 'e']], [.ref 1, .lit [' ', 'h', 'o', 'u', 'r', ' ', 'a', 'g', 'o']]),
    (.seqs [.lit ['v', 'o', 'r', ' '], .grp 1 (.number), .lit [' ', 'w', 'o', 'c', 'h', 'e', 'n']], [.ref 1, .lit [' ', 'w', 'e', 'e', 'k', ' ', 'a', 'g', 'o']]),
    (.seqs [.lit ['i', 'n', ' '], .grp 1 (.number), .lit [' ', 'j', 'a', 'h', 'r', 'e', 'n']], [.lit ['i', 'n', ' '], .ref 1, .lit [' ', 'y', 'e', 'a', 'r']]),
    (.seqs [.lit ['i', 'n', ' '], .grp 1 (.number), .lit [' ', 'm', 'i', 'n', 'u', 't', 'e']], [.lit ['i', 'n', ' '], .ref 1, .lit [' ', 'm', 'i', 'n', 'u', 't', 'e']]),
    (.seqs [.lit ['i', 'n', ' '], .grp 1 (.number), .lit [' ', 's', 't', 'u', 'n', 'd', 'e']], [.lit ['i', 'n', ' '], .ref 1, .lit [' ', 'h', 'o', 'u', 'r']]),
    (.seqs [.lit ['i', 'n', ' '], .grp 1 (.number), .lit [' ', 'w', 'o', 'c', 'h', 'e', 'n']], [.lit ['i', 'n', ' '], .ref 1, .lit [' ', 'w', 'e', 'e', 'k']]),
    (.seqs [.lit ['v', 'o', 'r', ' '], .grp 1 (.number), .lit [' ', 'm', 'o', 'n', 'a', 't']], [.ref 1, .lit [' ', 'm', 'o', 'n', 't', 'h', ' ', 'a', 'g', 'o']]),
    (.seqs [.lit ['v', 'o', 'r', ' '], .grp 1 (.number), .lit [' ', 't', 'a', 'g', 'e', 'n']], [.ref 1, .lit [' ', 'd', 'a', 'y', ' ', 'a', 'g', 'o']]),
    (.seqs [.lit ['v', 'o', 'r', ' '], .grp 1 (.number), .lit [' ', 'w', 'o', 'c', 'h', 'e']], [.ref 1, .lit [' ', 'w', 'e', 'e', 'k', ' ', 'a', 'g', 'o']]),
    (.seqs [.lit ['i', 'n', ' '], .grp 1 (.number), .lit [' ', 'm', 'o', 'n', 'a', 't']], [.lit ['i', 'n', ' '], .ref 1, .lit [' ', 'm', 'o', 'n', 't', 'h']]),
    (.seqs [.lit ['i', 'n', ' '], .grp 1 (.number), .lit [' ', 't', 'a', 'g', 'e', 'n']], [.lit ['i', 'n', ' '], .ref 1, .lit [' ', 'd', 'a', 'y']]),
    (.seqs [.lit ['i', 'n', ' '], .grp 1 (.number), .lit [' ', 'w', 'o', 'c', 'h', 'e']], [.lit ['i', 'n', ' '], .ref 1, .lit [' ', 'w', 'e', 'e', 'k']]),
    (.seqs [.lit ['v', 'o', 'r', ' '], .grp 1 (.number), .lit [' ', 'j', 'a', 'h', 'r']], [.ref 1, .lit [' ', 'y', 'e', 'a', 'r', ' ', 'a', 'g', 'o']]),
    (.seqs [.lit ['i', 'n', ' '], .grp 1 (.number), .lit [' ', 'j', 'a', 'h', 'r']], [.lit ['i', 'n', ' '], .ref 1, .lit [' ', 'y', 'e', 'a', 'r']]),
    (.seqs [.lit ['v', 'o', 'r', ' '], .grp 1 (.number), .lit [' ', 'm', 'i', 'n']], [.ref 1, .lit [' ', 'm', 'i', 'n', 'u', 't', 'e', ' ', 'a', 'g', 'o']]),
    (.seqs [.lit ['v', 'o', 'r', ' '], .grp 1 (.number), .lit [' ', 's', 'e', 'k']], [.ref 1, .lit [' ', 's', 'e', 'c', 'o', 'n', 'd', ' ', 'a', 'g', 'o']]),
    (.seqs [.lit ['v', 'o', 'r', ' '], .grp 1 (.number), .lit [' ', 's', 't', 'd']], [.ref 1, .lit [' ', 'h', 'o', 'u', 'r', ' ', 'a', 'g', 'o']]),
    (.seqs [.lit ['v', 'o', 'r', ' '], .grp 1 (.number), .lit [' ', 't', 'a', 'g']], [.ref 1, .lit [' ', 'd', 'a', 'y', ' ', 'a', 'g', 'o']]),
    (.seqs [.lit ['v', 'o', 'r', ' '], .grp 1 (.number), .star (.cls false [.space]), .lit ['h']], [.ref 1, .lit [' ', 'h', 'o', 'u', 'r', ' ', 'a', 'g', 'o']]),
    (.seqs [.lit ['v', 'o', 'r', ' '], .grp 1 (.number), .star (.cls false [.space]), .lit ['m']], [.ref 1, .lit [' ', 'm', 'i', 'n', 'u', 't', 'e', ' ', 'a', 'g', 'o']]),
    (.seqs [.lit ['v', 'o', 'r', ' '], .grp 1 (.number), .star (.cls false [.space]), .lit ['s']], [.ref 1, .lit [' ', 's', 'e', 'c', 'o', 'n', 'd', ' ', 'a', 'g', 'o']]),
    (.seqs [.lit ['i', 'n', ' '], .grp 1 (.number), .lit [' ', 'm', 'i', 'n']], [.lit ['i', 'n', ' '], .ref 1, .lit [' ', 'm', 'i', 'n', 'u', 't', 'e']]),
    (.seqs [.lit ['i', 'n', ' '], .grp 1 (.number), .lit [' ', 's', 'e', 'k']], [.lit ['i', 'n', ' '], .ref 1, .lit [' ', 's', 'e', 'c', 'o', 'n', 'd']]),
    (.seqs [.lit ['i', 'n', ' '], .grp 1 (.number), .lit [' ', 's', 't', 'd']], [.lit ['i', 'n', ' '], .ref 1, .lit [' ', 'h', 'o', 'u', 'r']]),
    (.seqs [.lit ['i', 'n', ' '], .grp 1 (.number), .lit [' ', 't', 'a', 'g']], [.lit ['i', 'n', ' '], .ref 1, .lit [' ', 'd', 'a', 'y']]),
    (.seqs [.lit ['v', 'o', 'r', ' '], .grp 1 (.number), .lit [' ', 'w', 'o']], [.ref 1, .lit [' ', 'w', 'e', 'e', 'k', ' ', 'a', 'g', 'o']]),
    (.seqs [.lit ['i', 'n', ' '], .grp 1 (.number), .lit [' ', 'w', 'o']], [.lit ['i', 'n', ' '], .ref 1, .lit [' ', 'w', 'e', 'e', 'k']]),
    (.seqs [.lit ['v', 'o', 'r', ' '], .grp 1 (.number), .lit [' ', 'm']], [.ref 1, .lit [' ', 'm', 'i', 'n', 'u', 't', 'e', ' ', 'a', 'g', 'o']]),
    (.seqs [.lit ['v', 'o', 'r', ' '], .grp 1 (.number), .lit [' ', 's']], [.ref 1, .lit [' ', 's', 'e', 'c', 'o', 'n', 'd', ' ', 'a', 'g', 'o']]),
    (.seqs [.lit ['i', 'n', ' '], .grp 1 (.number), .lit [' ', 'm']], [.lit ['i', 'n', ' '], .ref 1, .lit [' ', 'm', 'i', 'n', 'u', 't', 'e']]),
    (.seqs [.lit ['i', 'n', ' '], .grp 1 (.number), .lit [' ', 's']], [.lit ['i', 'n', ' '], .ref 1, .lit [' ', 's', 'e', 'c', 'o', 'n', 'd']])],
  rxCombined := some (.seqs [.grp 1 (.alts [.bos, .cls true [.letter, .mark, .digit], .lit ['_']]), .grp 2 (.alts [.seqs [.lit ['v', 'o', 'r', ' '], .number, .lit [' ', 's', 'e', 'k', 'u', 'n', 'd', 'e', 'n']], .seqs [.lit ['i', 'n', ' '], .number, .lit [' ', 's', 'e', 'k', 'u', 'n', 'd', 'e', 'n']], .seqs [.lit ['v', 'o', 'r', ' '], .number, .lit [' ', 'm', 'i', 'n', 'u', 't', 'e', 'n']], .seqs [.lit ['v', 'o', 'r', ' '], .number, .lit [' ', 'm', 'o', 'n', 'a', 't', 'e', 'n']], .seqs [.lit ['v', 'o', 'r', ' '], .number, .lit [' ', 's', 'e', 'k', 'u', 'n', 'd', 'e']], .seqs [.lit ['v', 'o', 'r', ' '], .number, .lit [' ', 's', 't', 'u', 'n', 'd', 'e', 'n']], .seqs [.lit ['i', 'n', ' '], .number, .lit [' ', 'm', 'i', 'n', 'u', 't', 'e', 'n']], .seqs [.lit ['i', 'n', ' '], .number, .lit [' ', 'm', 'o', 'n', 'a', 't', 'e', 'n']], .seqs [.lit ['i', 'n', ' '], .number, .lit [' ', 's', 'e', 'k', 'u', 'n', 'd', 'e']], .seqs [.lit ['i', 'n', ' '], .number, .lit [' ', 's', 't', 'u', 'n', 'd', 'e', 'n']], .seqs [.lit ['v', 'o', 'r', ' '], .number, .lit [' ', 'j', 'a', 'h', 'r', 'e', 'n']], .seqs [.lit ['v', 'o', 'r', ' '], .number, .lit [' ', 'm', 'i', 'n', 'u', 't', 'e']], .seqs [.lit ['v', 'o', 'r', ' '], .number, .lit [' ', 's', 't', 'u', 'n', 'd', 'e']], .seqs [.lit ['v', 'o', 'r', ' '], .number, .lit [' ', 'w', 'o', 'c', 'h', 'e', 'n']], .seqs [.lit ['i', 'n', ' '], .number, .lit [' ', 'j', 'a', 'h', 'r', 'e', 'n']], .seqs [.lit ['i', 'n', ' '], .number, .lit [' ', 'm', 'i', 'n', 'u', 't', 'e']], .seqs [.lit ['i', 'n', ' '], .number, .lit [' ', 's', 't', 'u', 'n', 'd', 'e']], .seqs [.lit ['i', 'n', ' '], .number, .lit [' ', 'w', 'o', 'c', 'h', 'e', 'n']], .seqs [.lit ['v', 'o', 'r', ' '], .number, .lit [' ', 'm', 'o', 'n', 'a', 't']], .seqs [.lit ['v', 'o', 'r', ' '], .number, .lit [' ', 't', 'a', 'g', 'e', 'n']], .seqs [.lit ['v', 'o', 'r', ' '], .number, .lit [' ', 'w', 'o', 'c', 'h', 'e']], .seqs [.lit ['i', 'n', ' '], .number, .lit [' ', 'm', 'o', 'n', 'a', 't']], .seqs [.lit ['i', 'n', ' '], .number, .lit [' ', 't', 'a', 'g', 'e', 'n']], .seqs [.lit ['i', 'n', ' '], .number, .lit [' ', 'w', 'o', 'c', 'h', 'e']], .seqs [.lit ['v', 'o', 'r', ' '], .number, .lit [' ', 'j', 'a', 'h', 'r']], .seqs [.lit ['i', 'n', ' '], .number, .lit [' ', 'j', 'a', 'h', 'r']], .seqs [.lit ['v', 'o', 'r', ' '], .number, .lit [' ', 'm', 'i', 'n']], .seqs [.lit ['v', 'o', 'r', ' '], .number, .lit [' ', 's', 'e', 'k']], .seqs [.lit ['v', 'o', 'r', ' '], .number, .lit [' ', 's', 't', 'd']], .seqs [.lit ['v', 'o', 'r', ' '], .number, .lit [' ', 't', 'a', 'g']], .seqs [.lit ['v', 'o', 'r', ' '], .number, .star (.cls false [.space]), .lit ['h']], .seqs [.lit ['v', 'o', 'r', ' '], .number, .star (.cls false [.space]), .lit ['m']], .seqs [.lit ['v', 'o', 'r', ' '], .number, .star (.cls false [.space]), .lit ['s']], .seqs [.lit ['i', 'n', ' '], .number, .lit [' ', 'm', 'i', 'n']], .seqs [.lit ['i', 'n', ' '], .number, .lit [' ', 's', 'e', 'k']], .seqs [.lit ['i', 'n', ' '], .number, .lit [' ', 's', 't', 'd']], .seqs [.lit ['i', 'n', ' '], .number, .lit [' ', 't', 'a', 'g']], .seqs [.lit ['v', 'o', 'r', ' '], .number, .lit [' ', 'w', 'o']], .seqs [.lit ['i', 'n', ' '], .number, .lit [' ', 'w', 'o']], .seqs [.lit ['v', 'o', 'r', ' '], .number, .lit [' ', 'm']], .seqs [.lit ['v', 'o', 'r', ' '], .number, .lit [' ', 's']], .seqs [.lit ['i', 'n', ' '], .number, .lit [' ', 'm']], .seqs [.lit ['i', 'n', ' '], .number, .lit [' ', 's']]]), .grp 3 (.alts [.eos, .cls true [.letter, .mark, .digit], .lit ['_']])], 3),
  rxExact := some (.seqs [.bos, .grp 1 (.alts [.seqs [.lit ['v', 'o', 'r', ' '], .number, .lit [' ', 's', 'e', 'k', 'u', 'n', 'd', 'e', 'n']], .seqs [.lit ['i', 'n', ' '], .number, .lit [' ', 's', 'e', 'k', 'u', 'n', 'd', 'e', 'n']], .seqs [.lit ['v', 'o', 'r', ' '], .number, .lit [' ', 'm', 'i', 'n', 'u', 't', 'e', 'n']], .seqs [.lit ['v', 'o', 'r', ' '], .number, .lit [' ', 'm', 'o', 'n', 'a', 't', 'e', 'n']], .seqs [.lit ['v', 'o', 'r', ' '], .number, .lit [' ', 's', 'e', 'k', 'u', 'n', 'd', 'e']], .seqs [.lit ['v', 'o', 'r', ' '], .number, .lit [' ', 's', 't', 'u', 'n', 'd', 'e', 'n']], .seqs [.lit ['i', 'n', ' '], .number, .lit [' ', 'm', 'i', 'n', 'u', 't', 'e', 'n']], .seqs [.lit ['i', 'n', ' '], .number, .lit [' ', 'm', 'o', 'n', 'a', 't', 'e', 'n']], .seqs [.lit ['i', 'n', ' '], .number, .lit [' ', 's', 'e', 'k', 'u', 'n', 'd', 'e']], .seqs [.lit ['i', 'n', ' '], .number, .lit [' ', 's', 't', 'u', 'n', 'd', 'e', 'n']], .seqs [.lit ['v', 'o', 'r', ' '], .number, .lit [' ', 'j', 'a', 'h', 'r', 'e', 'n']], .seqs [.lit ['v', 'o', 'r', ' '], .number, .lit [' ', 'm', 'i', 'n', 'u', 't', 'e']], .seqs [.lit ['v', 'o', 'r', ' '], .number, .lit [' ', 's', 't', 'u', 'n', 'd', 'e']], .seqs [.lit ['v', 'o', 'r', ' '], .number, .lit [' ', 'w', 'o', 'c', 'h', 'e', 'n']], .seqs [.lit ['i', 'n', ' '], .number, .lit [' ', 'j', 'a', 'h', 'r', 'e', 'n']], .seqs [.lit ['i', 'n', ' '], .number, .lit [' ', 'm', 'i', 'n', 'u', 't', 'e']], .seqs [.lit ['i', 'n', ' '], .number, .lit [' ', 's', 't', 'u', 'n', 'd', 'e']], .seqs [.lit ['i', 'n', ' '], .number, .lit [' ', 'w', 'o', 'c', 'h', 'e', 'n']], .seqs [.lit ['v', 'o', 'r', ' '], .number, .lit [' ', 'm', 'o', 'n', 'a', 't']], .seqs [.lit ['v', 'o', 'r', ' '], .number, .lit [' ', 't', 'a', 'g', 'e', 'n']], .seqs [.lit ['v', 'o', 'r', ' '], .number, .lit [' ', 'w', 'o', 'c', 'h', 'e']], .seqs [.lit ['i', 'n', ' '], .number, .lit [' ', 'm', 'o', 'n', 'a', 't']], .seqs [.lit ['i', 'n', ' '], .number, .lit [' ', 't', 'a', 'g', 'e', 'n']], .seqs [.lit ['i', 'n', ' '], .number, .lit [' ', 'w', 'o', 'c', 'h', 'e']], .seqs [.lit ['v', 'o', 'r', ' '], .number, .lit [' ', 'j', 'a', 'h', 'r']], .seqs [.lit ['i', 'n', ' '], .number, .lit [' ', 'j', 'a', 'h', 'r']], .seqs [.lit ['v', 'o', 'r', ' '], .number, .lit [' ', 'm', 'i', 'n']], .seqs [.lit ['v', 'o', 'r', ' '], .number, .lit [' ', 's', 'e', 'k']], .seqs [.lit ['v', 'o', 'r', ' '], .number, .lit [' ', 's', 't', 'd']], .seqs [.lit ['v', 'o', 'r', ' '], .number, .lit [' ', 't', 'a', 'g']], .seqs [.lit ['v', 'o', 'r', ' '], .number, .star (.cls false [.space]), .lit ['h']], .seqs [.lit ['v', 'o', 'r', ' '], .number, .star (.cls false [.space]), .lit ['m']], .seqs [.lit ['v', 'o', 'r', ' '], .number, .star (.cls false [.space]), .lit ['s']], .seqs [.lit ['i', 'n', ' '], .number, .lit [' ', 'm', 'i', 'n']], .seqs [.lit ['i', 'n', ' '], .number, .lit [' ', 's', 'e', 'k']], .seqs [.lit ['i', 'n', ' '], .number, .lit [' ', 's', 't', 'd']], .seqs [.lit ['i', 'n', ' '], .number, .lit [' ', 't', 'a', 'g']], .seqs [.lit ['v', 'o', 'r', ' '], .number, .lit [' ', 'w', 'o']], .seqs [.lit ['i', 'n', ' '], .number, .lit [' ', 'w', 'o']], .seqs [.lit ['v', 'o', 'r', ' '], .number, .lit [' ', 'm']], .seqs [.lit ['v', 'o', 'r', ' '], .number, .lit [' ', 's']], .seqs [.lit ['i', 'n', ' '], .number, .lit [' ', 'm']], .seqs [.lit ['i', 'n', ' '], .number, .lit [' ', 's']]]), .eos]),
  knownWords :=
   [['i', 'n', ' ', 'd', 'i', 'e', 's', 'e', 'r', ' ', 'm', 'i', 'n', 'u', 't', 'e'], ['i', 'n', ' ', 'd', 'i', 'e', 's', 'e', 'r', ' ', 's', 't', 'u', 'n', 'd', 'e'], ['n', 'a', 'c', 'h', 's', 't', 'e', 'n', ' ', 'm', 'o', 'n', 'a', 't'], ['l', 'e', 't', 'z', 't', 'e', 'n', ' ', 'm', 'o', 'n', 'a', 't'], ['n', 'a', 'c', 'h', 's', 't', 'e', ' ', 'w', 'o', 'c', 'h', 'e'], ['n', 'a', 'c', 'h', 's', 't', 'e', 's', ' ', 'j', 'a', 'h', 'r'], ['d', 'i', 'e', 's', 'e', 'n', ' ', 'm', 'o', 'n', 'a', 't'], ['l', 'e', 't', 'z', 't', 'e', ' ', 'w', 'o', 'c', 'h', 'e'], ['l', 'e', 't', 'z', 't', 'e', 's', ' ', 'j', 'a', 'h', 'r'], ['d', 'i', 'e', 's', 'e', ' ', 'w', 'o', 'c', 'h', 'e'], ['d', 'i', 'e', 's', 'e', 's', ' ', 'j', 'a', 'h', 'r'], ['d', 'o', 'n', 'n', 'e', 'r', 's', 't', 'a', 'g'], ['u', 'b', 'e', 'r', 'm', 'o', 'r', 'g', 'e', 'n'], ['v', 'o', 'r', 'g', 'e', 's', 't', 'e', 'r', 'n'], ['s', 'e', 'p', 't', 'e', 'm', 'b', 'e', 'r'], ['d', 'e', 'z', 'e', 'm', 'b', 'e', 'r'], ['d', 'i', 'e', 'n', 's', 't', 'a', 'g'], ['m', 'i', 't', 't', 'w', 'o', 'c', 'h'], ['n', 'o', 'v', 'e', 'm', 'b', 'e', 'r'], ['s', 'e', 'k', 'u', 'n', 'd', 'e', 'n'], ['f', 'e', 'b', 'r', 'u', 'a', 'r'], ['f', 'r', 'e', 'i', 't', 'a', 'g'], ['g', 'e', 's', 't', 'e', 'r', 'n'], ['m', 'i', 'n', 'u', 't', 'e', 'n'], ['m', 'o', 'n', 'a', 't', 'e', 'n'], ['o', 'k', 't', 'o', 'b', 'e', 'r'], ['s', 'a', 'm', 's', 't', 'a', 'g'], ['s', 'e', 'k', 'u', 'n', 'd', 'e'], ['s', 'o', 'n', 'n', 't', 'a', 'g'], ['s', 't', 'u', 'n', 'd', 'e', 'n'], ['a', 'u', 'g', 'u', 's', 't'], ['j', 'a', 'h', 'r', 'e', 'n'], ['j', 'a', 'n', 'n', 'e', 'r'], ['j', 'a', 'n', 'u', 'a', 'r'], ['m', 'i', 'n', 'u', 't', 'e'], ['m', 'o', 'n', 'a', 't', 'e'], ['m', 'o', 'n', 't', 'a', 'g'], ['m', 'o', 'r', 'g', 'e', 'n'], ['s', 't', 'u', 'n', 'd', 'e'], ['w', 'o', 'c', 'h', 'e', 'n'], ['a', 'p', 'r', 'i', 'l'], ['f', 'e', 'b', 'e', 'r'], ['h', 'e', 'u', 't', 'e'], ['j', 'a', 'h', 'r', 'e'], ['j', 'e', 't', 'z', 't'], ['m', 'o', 'n', 'a', 't'], ['n', 'a', 'c', 'h', 'm'], ['t', 'a', 'g', 'e', 'n'], ['w', 'o', 'c', 'h', 'e'], ['e', 't', 'w', 'a'], ['j', 'a', 'h', 'r'], ['j', 'u', 'l', 'i'], ['j', 'u', 'n', 'i'], ['m', 'a', 'r', 'z'], ['s', 'e', 'p', 't'], ['t', 'a', 'g', 'e'], ['v', 'o', 'r', 'm'], ['a', 'p', 'r'], ['a', 'u', 'g'], ['d', 'e', 'z'], ['d', 'i', 'e'], ['d', 'o', 'n'], ['f', 'e', 'b'], ['f', 'r', 'e'], ['g', 'm', 't'], ['j', 'a', 'n'], ['j', 'u', 'l'], ['j', 'u', 'n'], ['m', 'a', 'i'], ['m', 'a', 'r'], ['m', 'i', 'n'], ['m', 'i', 't'], ['m', 'o', 'n'], ['m', 'r', 'z'], ['n', 'o', 'v'], ['o', 'k', 't'], ['s', 'a', 'm'], ['s', 'e', 'k'], ['s', 'e', 'p'], ['s', 'o', 'n'], ['s', 't', 'd'], ['t', 'a', 'g'], ['u', 'h', 'r'], ['u', 'n', 'd'], ['u', 't', 'c'], ['v', 'o', 'r'], ['a', 'm'], ['d', 'i'], ['d', 'o'], ['f', 'r'], ['i', 'm'], ['i', 'n'], ['m', 'i'], ['m', 'o'], ['p', 'm'], ['s', 'a'], ['s', 'o'], ['u', 'm'], [' '], ['\''], ['+'], [','], ['-'], ['.'], ['/'], [':'], [';'], ['@'], ['['], [']'], ['j'], ['m'], ['w'], ['z'], ['|']] }

/-- internal/data/de.go: `de_AT_Locale`. -/
def de_ATLang : LangData := de_ATDict

/-- internal/data/de.go: `de_BE_Locale`. -/
def de_BELang : LangData := de_BEDict

/-- internal/data/de.go: `de_CH_Locale`. -/
def de_CHLang : LangData := de_CHDict

/-- internal/data/de.go: `de_IT_Locale`. -/
def de_ITLang : LangData := de_ITDict

/-- internal/data/de.go: `de_LI_Locale`. -/
def de_LILang : LangData := de_LIDict

/-- internal/data/de.go: `de_LU_Locale`. -/
def de_LULang : LangData := de_LUDict

/-- internal/data/dje.go: `dje_Locale`. -/
def djeLang : LangData := { djeDict with
  knownWords :=
   [['t', 'h', 'i', 's', ' ', 'm', 'i', 'n', 'u', 't', 'e'], ['l', 'a', 's', 't', ' ', 'm', 'o', 'n', 't', 'h'], ['n', 'e', 'x', 't', ' ', 'm', 'o', 'n', 't', 'h'], ['t', 'h', 'i', 's', ' ', 'm', 'o', 'n', 't', 'h'], ['z', 'a', 'a', 'r', 'i', 'k', 'a', 'y', ' ', 'b'], ['d', 'e', 'e', 's', 'a', 'n', 'b', 'u', 'r'], ['f', 'e', 'e', 'w', 'i', 'r', 'i', 'y', 'e'], ['l', 'a', 's', 't', ' ', 'w', 'e', 'e', 'k'], ['l', 'a', 's', 't', ' ', 'y', 'e', 'a', 'r'], ['n', 'e', 'x', 't', ' ', 'w', 'e', 'e', 'k'], ['n', 'e', 'x', 't', ' ', 'y', 'e', 'a', 'r'], ['n', 'o', 'o', 'w', 'a', 'n', 'b', 'u', 'r'], ['s', 'e', 'k', 't', 'a', 'n', 'b', 'u', 'r'], ['t', 'h', 'i', 's', ' ', 'h', 'o', 'u', 'r'], ['t', 'h', 'i', 's', ' ', 'w', 'e', 'e', 'k'], ['t', 'h', 'i', 's', ' ', 'y', 'e', 'a', 'r'], ['a', 'l', 'h', 'a', 'm', 'i', 's', 'i'], ['a', 't', 'a', 'l', 'a', 'a', 't', 'a'], ['o', 'k', 't', 'o', 'o', 'b', 'u', 'r'], ['s', 'u', 'b', 'b', 'a', 'a', 'h', 'i'], ['z', 'a', 'n', 'w', 'i', 'y', 'e'], ['a', 'l', 'a', 'r', 'b', 'a'], ['a', 'l', 'h', 'a', 'd', 'i'], ['a', 'l', 'z', 'u', 'm', 'a'], ['a', 's', 'i', 'b', 't', 'i'], ['a', 't', 'i', 'n', 'n', 'i'], ['a', 'w', 'i', 'r', 'i', 'l'], ['m', 'i', 'n', 'i', 't', 'i'], ['g', 'u', 'u', 'r', 'u'], ['h', 'a', 'n', 'd', 'u'], ['j', 'i', 'i', 'r', 'i'], ['m', 'a', 'r', 's', 'i'], ['z', 'a', 'a', 'r', 'i'], ['z', 'u', 'w', 'e', 'ŋ'], ['z', 'u', 'y', 'y', 'e'], ['h', 'e', 'b', 'u'], ['m', 'i', 't', 'i'], ['s', 'u', 'b', 'a'], ['a', 'l', 'a'], ['a', 'l', 'h'], ['a', 'l', 'm'], ['a', 'l', 'z'], ['a', 's', 'i'], ['a', 't', 'a'], ['a', 't', 'i'], ['a', 'w', 'i'], ['d', 'e', 'e'], ['f', 'e', 'e'], ['g', 'm', 't'], ['h', 'o', 'o'], ['m', 'a', 'r'], ['n', 'o', 'o'], ['n', 'o', 'w'], ['o', 'k', 't'], ['s', 'e', 'k'], ['u', 't', 'c'], ['z', 'a', 'n'], ['z', 'u', 'w'], ['z', 'u', 'y'], ['a', 'm'], ['b', 'i'], ['m', 'e'], ['p', 'm'], ['u', 't'], [' '], ['\''], ['+'], [','], ['-'], ['.'], ['/'], [':'], [';'], ['@'], ['['], [']'], ['z'], ['|']] }

/-- internal/data/dsb.go: `dsb_Locale`. -/
def dsbLang : LangData := { dsbDict with
  relativeRegexes :=
   [(.seqs [.lit ['p', 's', 'e', 'd', ' '], .grp 1 (.number), .lit [' ', 'm', 'j', 'a', 's', 'e', 'c', 'a', 'm', 'i']], [.ref 1, .lit [' ', 'm', 'o', 'n', 't', 'h', ' ', 'a', 'g', 'o']]),
    (.seqs [.lit ['p', 's', 'e', 'd', ' '], .grp 1 (.number), .lit [' ', 's', 'e', 'k', 'u', 'n', 'd', 'a', 'm', 'i']], [.ref 1, .lit [' ', 's', 'e', 'c', 'o', 'n', 'd', ' ', 'a', 'g', 'o']]),
    (.seqs [.lit ['p', 's', 'e', 'd', ' '], .grp 1 (.number), .lit [' ', 't', 'y', 'z', 'e', 'n', 'j', 'a', 'm', 'i']], [.ref 1, .lit [' ', 'w', 'e', 'e', 'k', ' ', 'a', 'g', 'o']]),
    (.seqs [.lit ['p', 's', 'e', 'd', ' '], .grp 1 (.number), .lit [' ', 'g', 'o', 'z', 'i', 'n', 'a', 'm', 'i']], [.ref 1, .lit [' ', 'h', 'o', 'u', 'r', ' ', 'a', 'g', 'o']]),
    (.seqs [.lit ['p', 's', 'e', 'd', ' '], .grp 1 (.number), .lit [' ', 'm', 'i', 'n', 'u', 't', 'a', 'm', 'i']], [.ref 1, .lit [' ', 'm', 'i', 'n', 'u', 't', 'e', ' ', 'a', 'g', 'o']]),
    (.seqs [.lit ['p', 's', 'e', 'd', ' '], .grp 1 (.number), .lit [' ', 'm', 'j', 'a', 's', 'e', 'c', 'o', 'm']], [.ref 1, .lit [' ', 'm', 'o', 'n', 't', 'h', ' ', 'a', 'g', 'o']]),
    (.seqs [.lit ['p', 's', 'e', 'd', ' '], .grp 1 (.number), .lit [' ', 't', 'y', 'z', 'e', 'n', 'j', 'o', 'm']], [.ref 1, .lit [' ', 'w', 'e', 'e', 'k', ' ', 'a', 'g', 'o']]),
    (.seqs [.lit ['p', 's', 'e', 'd', ' '], .grp 1 (.number), .lit [' ', 's', 'e', 'k', 'u', 'n', 'd', 'u']], [.ref 1, .lit [' ', 's', 'e', 'c', 'o', 'n', 'd', ' ', 'a', 'g', 'o']]),
    (.seqs [.lit ['p', 's', 'e', 'd', ' '], .grp 1 (.number), .lit [' ', 'd', 'n', 'j', 'a', 'm', 'i']], [.ref 1, .lit [' ', 'd', 'a', 'y', ' ', 'a', 'g', 'o']]),
    (.seqs [.lit ['p', 's', 'e', 'd', ' '], .grp 1 (.number), .lit [' ', 'g', 'o', 'z', 'i', 'n', 'u']], [.ref 1, .lit [' ', 'h', 'o', 'u', 'r', ' ', 'a', 'g', 'o']]),
    (.seqs [.lit ['p', 's', 'e', 'd', ' '], .grp 1 (.number), .lit [' ', 'l', 'e', 't', 'a', 'm', 'i']], [.ref 1, .lit [' ', 'y', 'e', 'a', 'r', ' ', 'a', 'g', 'o']]),
    (.seqs [.lit ['p', 's', 'e', 'd', ' '], .grp 1 (.number), .lit [' ', 'm', 'i', 'n', 'u', 't', 'u']], [.ref 1, .lit [' ', 'm', 'i', 'n', 'u', 't', 'e', ' ', 'a', 'g', 'o']]),
    (.seqs [.lit ['z', 'a', ' '], .grp 1 (.number), .lit [' ', 'm', 'j', 'a', 's', 'e', 'c', 'o', 'w']], [.lit ['i', 'n', ' '], .ref 1, .lit [' ', 'm', 'o', 'n', 't', 'h']]),
    (.seqs [.lit ['z', 'a', ' '], .grp 1 (.number), .lit [' ', 's', 'e', 'k', 'u', 'n', 'd', 'o', 'w']], [.lit ['i', 'n', ' '], .ref 1, .lit [' ', 's', 'e', 'c', 'o', 'n', 'd']]),
    (.seqs [.lit ['z', 'a', ' '], .grp 1 (.number), .lit [' ', 't', 'y', 'z', 'e', 'n', 'j', 'o', 'w']], [.lit ['i', 'n', ' '], .ref 1, .lit [' ', 'w', 'e', 'e', 'k']]),
    (.seqs [.lit ['p', 's', 'e', 'd', ' '], .grp 1 (.number), .lit [' ', 'd', 'n', 'j', 'o', 'm']], [.ref 1, .lit [' ', 'd', 'a', 'y', ' ', 'a', 'g', 'o']]),
    (.seqs [.lit ['p', 's', 'e', 'd', ' '], .grp 1 (.number), .lit [' ', 'l', 'e', 't', 'o', 'm']], [.ref 1, .lit [' ', 'y', 'e', 'a', 'r', ' ', 'a', 'g', 'o']]),
    (.seqs [.lit ['z', 'a', ' '], .grp 1 (.number), .lit [' ', 'm', 'i', 'n', 'u', 't', 'o', 'w']], [.lit ['i', 'n', ' '], .ref 1, .lit [' ', 'm', 'i', 'n', 'u', 't', 'e']]),
    (.seqs [.lit ['z', 'a', ' '], .grp 1 (.number), .lit [' ', 's', 'e', 'k', 'u', 'n', 'd', 'u']], [.lit ['i', 'n', ' '], .ref 1, .lit [' ', 's', 'e', 'c', 'o', 'n', 'd']]),
    (.seqs [.lit ['p', 's', 'e', 'd', ' '], .grp 1 (.number), .lit [' ', 'm', 'j', 'a', 's']], [.ref 1, .lit [' ', 'm', 'o', 'n', 't', 'h', ' ', 'a', 'g', 'o']]),
    (.seqs [.lit ['z', 'a', ' '], .grp 1 (.number), .lit [' ', 'g', 'o', 'z', 'i', 'n', 'u']], [.lit ['i', 'n', ' '], .ref 1, .lit [' ', 'h', 'o', 'u', 'r']]),
    (.seqs [.lit ['z', 'a', ' '], .grp 1 (.number), .lit [' ', 'm', 'i', 'n', 'u', 't', 'u']], [.lit ['i', 'n', ' '], .ref 1, .lit [' ', 'm', 'i', 'n', 'u', 't', 'e']]),
    (.seqs [.lit ['z', 'a', ' '], .grp 1 (.number), .lit [' ', 'm', 'j', 'a', 's', 'e', 'c']], [.lit ['i', 'n', ' '], .ref 1, .lit [' ', 'm', 'o', 'n', 't', 'h']]),
    (.seqs [.lit ['p', 's', 'e', 'd', ' '], .grp 1 (.number), .lit [' ', 'd', 'n', 'j']], [.ref 1, .lit [' ', 'd', 'a', 'y', ' ', 'a', 'g', 'o']]),
    (.seqs [.lit ['p', 's', 'e', 'd', ' '], .grp 1 (.number), .lit [' ', 'g', 'o', 'z']], [.ref 1, .lit [' ', 'h', 'o', 'u', 'r', ' ', 'a', 'g', 'o']]),
    (.seqs [.lit ['p', 's', 'e', 'd', ' '], .grp 1 (.number), .lit [' ', 'm', 'i', 'n']], [.ref 1, .lit [' ', 'm', 'i', 'n', 'u', 't', 'e', ' ', 'a', 'g', 'o']]),
    (.seqs [.lit ['p', 's', 'e', 'd', ' '], .grp 1 (.number), .lit [' ', 's', 'e', 'k']], [.ref 1, .lit [' ', 's', 'e', 'c', 'o', 'n', 'd', ' ', 'a', 'g', 'o']]),
    (.seqs [.lit ['p', 's', 'e', 'd', ' '], .grp 1 (.number), .lit [' ', 't', 'y', 'z']], [.ref 1, .lit [' ', 'w', 'e', 'e', 'k', ' ', 'a', 'g', 'o']]),
    (.seqs [.lit ['z', 'a', ' '], .grp 1 (.number), .lit [' ', 'd', 'n', 'j', 'o', 'w']], [.lit ['i', 'n', ' '], .ref 1, .lit [' ', 'd', 'a', 'y']]),
    (.seqs [.lit ['z', 'a', ' '], .grp 1 (.number), .lit [' ', 'g', 'o', 'z', 'i', 'n']], [.lit ['i', 'n', ' '], .ref 1, .lit [' ', 'h', 'o', 'u', 'r']]),
    (.seqs [.lit ['z', 'a', ' '], .grp 1 (.number), .lit [' ', 't', 'y', 'z', 'e', 'n']], [.lit ['i', 'n', ' '], .ref 1, .lit [' ', 'w', 'e', 'e', 'k']]),
    (.seqs [.lit ['z', 'a', ' '], .grp 1 (.number), .lit [' ', 'l', 'e', 't', 'o']], [.lit ['i', 'n', ' '], .ref 1, .lit [' ', 'y', 'e', 'a', 'r']]),
    (.seqs [.lit ['z', 'a', ' '], .grp 1 (.number), .lit [' ', 'm', 'j', 'a', 's']], [.lit ['i', 'n', ' '], .ref 1, .lit [' ', 'm', 'o', 'n', 't', 'h']]),
    (.seqs [.lit ['p', 's', 'e', 'd', ' '], .grp 1 (.number), .lit [' ', 'd']], [.ref 1, .lit [' ', 'd', 'a', 'y', ' ', 'a', 'g', 'o']]),
    (.seqs [.lit ['p', 's', 'e', 'd', ' '], .grp 1 (.number), .lit [' ', 'g']], [.ref 1, .lit [' ', 'h', 'o', 'u', 'r', ' ', 'a', 'g', 'o']]),
    (.seqs [.lit ['p', 's', 'e', 'd', ' '], .grp 1 (.number), .lit [' ', 'l']], [.ref 1, .lit [' ', 'y', 'e', 'a', 'r', ' ', 'a', 'g', 'o']]),
    (.seqs [.lit ['p', 's', 'e', 'd', ' '], .grp 1 (.number), .lit [' ', 'm']], [.ref 1, .lit [' ', 'm', 'i', 'n', 'u', 't', 'e', ' ', 'a', 'g', 'o']]),
    (.seqs [.lit ['p', 's', 'e', 'd', ' '], .grp 1 (.number), .lit [' ', 's']], [.ref 1, .lit [' ', 's', 'e', 'c', 'o', 'n', 'd', ' ', 'a', 'g', 'o']]),
    (.seqs [.lit ['z', 'a', ' '], .grp 1 (.number), .lit [' ', 'd', 'n', 'j']], [.lit ['i', 'n', ' '], .ref 1, .lit [' ', 'd', 'a', 'y']]),
    (.seqs [.lit ['z', 'a', ' '], .grp 1 (.number), .lit [' ', 'g', 'o', 'z']], [.lit ['i', 'n', ' '], .ref 1, .lit [' ', 'h', 'o', 'u', 'r']]),
    (.seqs [.lit ['z', 'a', ' '], .grp 1 (.number), .lit [' ', 'l', 'e', 't']], [.lit ['i', 'n', ' '], .ref 1, .lit [' ', 'y', 'e', 'a', 'r']]),
    (.seqs [.lit ['z', 'a', ' '], .grp 1 (.number), .lit [' ', 'm', 'i', 'n']], [.lit ['i', 'n', ' '], .ref 1, .lit [' ', 'm', 'i', 'n', 'u', 't', 'e']]),
    (.seqs [.lit ['z', 'a', ' '], .grp 1 (.number), .lit [' ', 's', 'e', 'k']], [.lit ['i', 'n', ' '], .ref 1, .lit [' ', 's', 'e', 'c', 'o', 'n', 'd']]),
    (.seqs [.lit ['z', 'a', ' '], .grp 1 (.number), .lit [' ', 't', 'y', 'z']], [.lit ['i', 'n', ' '], .ref 1, .lit [' ', 'w', 'e', 'e', 'k']]),
    (.seqs [.lit ['z', 'a', ' '], .grp 1 (.number), .lit [' ', 'z', 'e', 'n']], [.lit ['i', 'n', ' '], .ref 1, .lit [' ', 'd', 'a', 'y']]),
    (.seqs [.lit ['z', 'a', ' '], .grp 1 (.number), .lit [' ', 'g']], [.lit ['i', 'n', ' '], .ref 1, .lit [' ', 'h', 'o', 'u', 'r']]),
    (.seqs [.lit ['z', 'a', ' '], .grp 1 (.number), .lit [' ', 'l']], [.lit ['i', 'n', ' '], .ref 1, .lit [' ', 'y', 'e', 'a', 'r']]),
    (.seqs [.lit ['z', 'a', ' '], .grp 1 (.number), .lit [' ', 'm']], [.lit ['i', 'n', ' '], .ref 1, .lit [' ', 'm', 'i', 'n', 'u', 't', 'e']]),
    (.seqs [.lit ['z', 'a', ' '], .grp 1 (.number), .lit [' ', 's']], [.lit ['i', 'n', ' '], .ref 1, .lit [' ', 's', 'e', 'c', 'o', 'n', 'd']]),
    (.seqs [.lit ['z', 'a', ' '], .grp 1 (.number), .lit [' ', 'z']], [.lit ['i', 'n', ' '], .ref 1, .lit [' ', 'd', 'a', 'y']])],
  rxCombined := some (.seqs [.grp 1 (.alts [.bos, .cls true [.letter, .mark, .digit], .lit ['_']]), .grp 2 (.alts [.seqs [.lit ['p', 's', 'e', 'd', ' '], .number, .lit [' ', 'm', 'j', 'a', 's', 'e', 'c', 'a', 'm', 'i']], .seqs [.lit ['p', 's', 'e', 'd', ' '], .number, .lit [' ', 's', 'e', 'k', 'u', 'n', 'd', 'a', 'm', 'i']], .seqs [.lit ['p', 's', 'e', 'd', ' '], .number, .lit [' ', 't', 'y', 'z', 'e', 'n', 'j', 'a', 'm', 'i']], .seqs [.lit ['p', 's', 'e', 'd', ' '], .number, .lit [' ', 'g', 'o', 'z', 'i', 'n', 'a', 'm', 'i']], .seqs [.lit ['p', 's', 'e', 'd', ' '], .number, .lit [' ', 'm', 'i', 'n', 'u', 't', 'a', 'm', 'i']], .seqs [.lit ['p', 's', 'e', 'd', ' '], .number, .lit [' ', 'm', 'j', 'a', 's', 'e', 'c', 'o', 'm']], .seqs [.lit ['p', 's', 'e', 'd', ' '], .number, .lit [' ', 't', 'y', 'z', 'e', 'n', 'j', 'o', 'm']], .seqs [.lit ['p', 's', 'e', 'd', ' '], .number, .lit [' ', 's', 'e', 'k', 'u', 'n', 'd', 'u']], .seqs [.lit ['p', 's', 'e', 'd', ' '], .number, .lit [' ', 'd', 'n', 'j', 'a', 'm', 'i']], .seqs [.lit ['p', 's', 'e', 'd', ' '], .number, .lit [' ', 'g', 'o', 'z', 'i', 'n', 'u']], .seqs [.lit ['p', 's', 'e', 'd', ' '], .number, .lit [' ', 'l', 'e', 't', 'a', 'm', 'i']], .seqs [.lit ['p', 's', 'e', 'd', ' '], .number, .lit [' ', 'm', 'i', 'n', 'u', 't', 'u']], .seqs [.lit ['z', 'a', ' '], .number, .lit [' ', 'm', 'j', 'a', 's', 'e', 'c', 'o', 'w']], .seqs [.lit ['z', 'a', ' '], .number, .lit [' ', 's', 'e', 'k', 'u', 'n', 'd', 'o', 'w']], .seqs [.lit ['z', 'a', ' '], .number, .lit [' ', 't', 'y', 'z', 'e', 'n', 'j', 'o', 'w']], .seqs [.lit ['p', 's', 'e', 'd', ' '], .number, .lit [' ', 'd', 'n', 'j', 'o', 'm']], .seqs [.lit ['p', 's', 'e', 'd', ' '], .number, .lit [' ', 'l', 'e', 't', 'o', 'm']], .seqs [.lit ['z', 'a', ' '], .number, .lit [' ', 'm', 'i', 'n', 'u', 't', 'o', 'w']], .seqs [.lit ['z', 'a', ' '], .number, .lit [' ', 's', 'e', 'k', 'u', 'n', 'd', 'u']], .seqs [.lit ['p', 's', 'e', 'd', ' '], .number, .lit [' ', 'm', 'j', 'a', 's']], .seqs [.lit ['z', 'a', ' '], .number, .lit [' ', 'g', 'o', 'z', 'i', 'n', 'u']], .seqs [.lit ['z', 'a', ' '], .number, .lit [' ', 'm', 'i', 'n', 'u', 't', 'u']], .seqs [.lit ['z', 'a', ' '], .number, .lit [' ', 'm', 'j', 'a', 's', 'e', 'c']], .seqs [.lit ['p', 's', 'e', 'd', ' '], .number, .lit [' ', 'd', 'n', 'j']], .seqs [.lit ['p', 's', 'e', 'd', ' '], .number, .lit [' ', 'g', 'o', 'z']], .seqs [.lit ['p', 's', 'e', 'd', ' '], .number, .lit [' ', 'm', 'i', 'n']], .seqs [.lit ['p', 's', 'e', 'd', ' '], .number, .lit [' ', 's', 'e', 'k']], .seqs [.lit ['p', 's', 'e', 'd', ' '], .number, .lit [' ', 't', 'y', 'z']], .seqs [.lit ['z', 'a', ' '], .number, .lit [' ', 'd', 'n', 'j', 'o', 'w']], .seqs [.lit ['z', 'a', ' '], .number, .lit [' ', 'g', 'o', 'z', 'i', 'n']], .seqs [.lit ['z', 'a', ' '], .number, .lit [' ', 't', 'y', 'z', 'e', 'n']], .seqs [.lit ['z', 'a', ' '], .number, .lit [' ', 'l', 'e', 't', 'o']], .seqs [.lit ['z', 'a', ' '], .number, .lit [' ', 'm', 'j', 'a', 's']], .seqs [.lit ['p', 's', 'e', 'd', ' '], .number, .lit [' ', 'd']], .seqs [.lit ['p', 's', 'e', 'd', ' '], .number, .lit [' ', 'g']], .seqs [.lit ['p', 's', 'e', 'd', ' '], .number, .lit [' ', 'l']], .seqs [.lit ['p', 's', 'e', 'd', ' '], .number, .lit [' ', 'm']], .seqs [.lit ['p', 's', 'e', 'd', ' '], .number, .lit [' ', 's']], .seqs [.lit ['z', 'a', ' '], .number, .lit [' ', 'd', 'n', 'j']], .seqs [.lit ['z', 'a', ' '], .number, .lit [' ', 'g', 'o', 'z']], .seqs [.lit ['z', 'a', ' '], .number, .lit [' ', 'l', 'e', 't']], .seqs [.lit ['z', 'a', ' '], .number, .lit [' ', 'm', 'i', 'n']], .seqs [.lit ['z', 'a', ' '], .number, .lit [' ', 's', 'e', 'k']], .seqs [.lit ['z', 'a', ' '], .number, .lit [' ', 't', 'y', 'z']], .seqs [.lit ['z', 'a', ' '], .number, .lit [' ', 'z', 'e', 'n']], .seqs [.lit ['z', 'a', ' '], .number, .lit [' ', 'g']], .seqs [.lit ['z', 'a', ' '], .number, .lit [' ', 'l']], .seqs [.lit ['z', 'a', ' '], .number, .lit [' ', 'm']], .seqs [.lit ['z', 'a', ' '], .number, .lit [' ', 's']], .seqs [.lit ['z', 'a', ' '], .number, .lit [' ', 'z']]]), .grp 3 (.alts [.eos, .cls true [.letter, .mark, .digit], .lit ['_']])], 3),
  rxExact := some (.seqs [.bos, .grp 1 (.alts [.seqs [.lit ['p', 's', 'e', 'd', ' '], .number, .lit [' ', 'm', 'j', 'a', 's', 'e', 'c', 'a', 'm', 'i']], .seqs [.lit ['p', 's', 'e', 'd', ' '], .number, .lit [' ', 's', 'e', 'k', 'u', 'n', 'd', 'a', 'm', 'i']], .seqs [.lit ['p', 's', 'e', 'd', ' '], .number, .lit [' ', 't', 'y', 'z', 'e', 'n', 'j', 'a', 'm', 'i']], .seqs [.lit ['p', 's', 'e', 'd', ' '], .number, .lit [' ', 'g', 'o', 'z', 'i', 'n', 'a', 'm', 'i']], .seqs [.lit ['p', 's', 'e', 'd', ' '], .number, .lit [' ', 'm', 'i', 'n', 'u', 't', 'a', 'm', 'i']], .seqs [.lit ['p', 's', 'e', 'd', ' '], .number, .lit [' ', 'm', 'j', 'a', 's', 'e', 'c', 'o', 'm']], .seqs [.lit ['p', 's', 'e', 'd', ' '], .number, .lit [' ', 't', 'y', 'z', 'e', 'n', 'j', 'o', 'm']], .seqs [.lit ['p', 's', 'e', 'd', ' '], .number, .lit [' ', 's', 'e', 'k', 'u', 'n', 'd', 'u']], .seqs [.lit ['p', 's', 'e', 'd', ' '], .number, .lit [' ', 'd', 'n', 'j', 'a', 'm', 'i']], .seqs [.lit ['p', 's', 'e', 'd', ' '], .number, .lit [' ', 'g', 'o', 'z', 'i', 'n', 'u']], .seqs [.lit ['p', 's', 'e', 'd', ' '], .number, .lit [' ', 'l', 'e', 't', 'a', 'm', 'i']], .seqs [.lit ['p', 's', 'e', 'd', ' '], .number, .lit [' ', 'm', 'i', 'n', 'u', 't', 'u']], .seqs [.lit ['z', 'a', ' '], .number, .lit [' ', 'm', 'j', 'a', 's', 'e', 'c', 'o', 'w']], .seqs [.lit ['z', 'a', ' '], .number, .lit [' ', 's', 'e', 'k', 'u', 'n', 'd', 'o', 'w']], .seqs [.lit ['z', 'a', ' '], .number, .lit [' ', 't', 'y', 'z', 'e', 'n', 'j', 'o', 'w']], .seqs [.lit ['p', 's', 'e', 'd', ' '], .number, .lit [' ', 'd', 'n', 'j', 'o', 'm']], .seqs [.lit ['p', 's', 'e', 'd', ' '], .number, .lit [' ', 'l', 'e', 't', 'o', 'm']], .seqs [.lit ['z', 'a', ' '], .number, .lit [' ', 'm', 'i', 'n', 'u', 't', 'o', 'w']], .seqs [.lit ['z', 'a', ' '], .number, .lit [' ', 's', 'e', 'k', 'u', 'n', 'd', 'u']], .seqs [.lit ['p', 's', 'e', 'd', ' '], .number, .lit [' ', 'm', 'j', 'a', 's']], .seqs [.lit ['z', 'a', ' '], .number, .lit [' ', 'g', 'o', 'z', 'i', 'n', 'u']], .seqs [.lit ['z', 'a', ' '], .number, .lit [' ', 'm', 'i', 'n', 'u', 't', 'u']], .seqs [.lit ['z', 'a', ' '], .number, .lit [' ', 'm', 'j', 'a', 's', 'e', 'c']], .seqs [.lit ['p', 's', 'e', 'd', ' '], .number, .lit [' ', 'd', 'n', 'j']], .seqs [.lit ['p', 's', 'e', 'd', ' '], .number, .lit [' ', 'g', 'o', 'z']], .seqs [.lit ['p', 's', 'e', 'd', ' '], .number, .lit [' ', 'm', 'i', 'n']], .seqs [.lit ['p', 's', 'e', 'd', ' '], .number, .lit [' ', 's', 'e', 'k']], .seqs [.lit ['p', 's', 'e', 'd', ' '], .number, .lit [' ', 't', 'y', 'z']], .seqs [.lit ['z', 'a', ' '], .number, .lit [' ', 'd', 'n', 'j', 'o', 'w']], .seqs [.lit ['z', 'a', ' '], .number, .lit [' ', 'g', 'o', 'z', 'i', 'n']], .seqs [.lit ['z', 'a', ' '], .number, .lit [' ', 't', 'y', 'z', 'e', 'n']], .seqs [.lit ['z', 'a', ' '], .number, .lit [' ', 'l', 'e', 't', 'o']], .seqs [.lit ['z', 'a', ' '], .number, .lit [' ', 'm', 'j', 'a', 's']], .seqs [.lit ['p', 's', 'e', 'd', ' '], .number, .lit [' ', 'd']], .seqs [.lit ['p', 's', 'e', 'd', ' '], .number, .lit [' ', 'g']], .seqs [.lit ['p', 's', 'e', 'd', ' '], .number, .lit [' ', 'l']], .seqs [.lit ['p', 's', 'e', 'd', ' '], .number, .lit [' ', 'm']], .seqs [.lit ['p', 's', 'e', 'd', ' '], .number, .lit [' ', 's']], .seqs [.lit ['z', 'a', ' '], .number, .lit [' ', 'd', 'n', 'j']], .seqs [.lit ['z', 'a', ' '], .number, .lit [' ', 'g', 'o', 'z']], .seqs [.lit ['z', 'a', ' '], .number, .lit [' ', 'l', 'e', 't']], .seqs [.lit ['z', 'a', ' '], .number, .lit [' ', 'm', 'i', 'n']], .seqs [.lit ['z', 'a', ' '], .number, .lit [' ', 's', 'e', 'k']], .seqs [.lit ['z', 'a', ' '], .number, .lit [' ', 't', 'y', 'z']], .seqs [.lit ['z', 'a', ' '], .number, .lit [' ', 'z', 'e', 'n']], .seqs [.lit ['z', 'a', ' '], .number, .lit [' ', 'g']], .seqs [.lit ['z', 'a', ' '], .number, .lit [' ', 'l']], .seqs [.lit ['z', 'a', ' '], .number, .lit [' ', 'm']], .seqs [.lit ['z', 'a', ' '], .number, .lit [' ', 's']], .seqs [.lit ['z', 'a', ' '], .number, .lit [' ', 'z']]]), .eos]),
  knownWords :=
   [['p', 's', 'i', 'd', 'u', 'c', 'y', ' ', 'm', 'j', 'a', 's', 'e', 'c'], ['p', 's', 'i', 'd', 'u', 'c', 'y', ' ', 't', 'y', 'z', 'e', 'n'], ['s', 'l', 'e', 'd', 'n', 'y', ' ', 'm', 'j', 'a', 's', 'e', 'c'], ['s', 'l', 'e', 'd', 'n', 'y', ' ', 't', 'y', 'z', 'e', 'n'], ['t', 'h', 'i', 's', ' ', 'm', 'i', 'n', 'u', 't', 'e'], ['t', 'e', 'n', ' ', 'm', 'j', 'a', 's', 'e', 'c'], ['w', 'o', 't', 'p', 'o', 'ł', 'd', 'n', 'j', 'a'], ['d', 'o', 'p', 'o', 'ł', 'd', 'n', 'j', 'a'], ['p', 'o', 'n', 'j', 'e', 'z', 'e', 'l', 'e'], ['s', 'e', 'p', 't', 'e', 'm', 'b', 'e', 'r'], ['s', 'e', 'p', 't', 'e', 'm', 'b', 'r', 'a'], ['t', 'e', 'n', ' ', 't', 'y', 'z', 'e', 'n'], ['t', 'h', 'i', 's', ' ', 'h', 'o', 'u', 'r'], ['d', 'e', 'c', 'e', 'm', 'b', 'e', 'r'], ['d', 'e', 'c', 'e', 'm', 'b', 'r', 'a'], ['f', 'e', 'b', 'r', 'u', 'a', 'r', 'a'], ['n', 'o', 'w', 'e', 'm', 'b', 'e', 'r'], ['n', 'o', 'w', 'e', 'm', 'b', 'r', 'a'], ['a', 'w', 'g', 'u', 's', 't', 'a'], ['f', 'e', 'b', 'r', 'u', 'a', 'r'], ['j', 'a', 'n', 'u', 'a', 'r', 'a'], ['n', 'j', 'e', 'z', 'e', 'l', 'a'], ['o', 'k', 't', 'o', 'b', 'e', 'r'], ['o', 'k', 't', 'o', 'b', 'r', 'a'], ['s', 'e', 'k', 'u', 'n', 'd', 'a'], ['s', 't', 'w', 'o', 'r', 't', 'k'], ['w', 'a', 'ł', 't', 'o', 'r', 'a'], ['a', 'p', 'r', 'y', 'l', 'a'], ['a', 'w', 'g', 'u', 's', 't'], ['g', 'o', 'z', 'i', 'n', 'a'], ['j', 'a', 'n', 'u', 'a', 'r'], ['j', 'u', 'l', 'i', 'j', 'a'], ['j', 'u', 'n', 'i', 'j', 'a'], ['l', 'e', 't', 'o', 's', 'a'], ['m', 'i', 'n', 'u', 't', 'a'], ['m', 'j', 'a', 's', 'e', 'c'], ['s', 'o', 'b', 'o', 't', 'a'], ['s', 'r', 'j', 'o', 'd', 'a'], ['a', 'p', 'r', 'y', 'l'], ['j', 'u', 'l', 'i', 'j'], ['j', 'u', 'n', 'i', 'j'], ['m', 'e', 'r', 'c', 'a'], ['t', 'y', 'z', 'e', 'n'], ['w', 'i', 't', 's', 'e'], ['z', 'i', 'n', 's', 'a'], ['z', 'n', 'o', 'w', 'a'], ['c', 'o', 'r', 'a'], ['l', 'e', 't', 'o'], ['m', 'a', 'j', 'a'], ['m', 'e', 'r', 'c'], ['m', 'j', 'a', 's'], ['p', 'e', 't', 'k'], ['ł', 'o', 'n', 'i'], ['a', 'p', 'r'], ['a', 'w', 'g'], ['d', 'e', 'c'], ['f', 'e', 'b'], ['g', 'm', 't'], ['g', 'o', 'z'], ['j', 'a', 'n'], ['j', 'u', 'l'], ['j', 'u', 'n'], ['m', 'a', 'j'], ['m', 'e', 'r'], ['m', 'i', 'n'], ['n', 'j', 'e'], ['n', 'o', 'w'], ['o', 'k', 't'], ['p', 'e', 't'], ['p', 'o', 'n'], ['s', 'e', 'k'], ['s', 'e', 'p'], ['s', 'o', 'b'], ['s', 'r', 'j'], ['s', 't', 'w'], ['t', 'y', 'z'], ['u', 't', 'c'], ['w', 'a', 'ł'], ['z', 'e', 'n'], ['a', 'm'], ['p', 'm'], [' '], ['\''], ['+'], [','], ['-'], ['.'], ['/'], [':'], [';'], ['@'], ['['], [']'], ['g'], ['l'], ['m'], ['s'], ['z'], ['|']] }

/-- internal/data/dua.go: `dua_Locale`. -/
def duaLang : LangData := { duaDict with
  knownWords :=
   [['k', 'i', 'ɛ', 'l', 'ɛ', ' ', 'n', 'i', 't', 'o', 'm', 'b', 'i'], ['t', 'h', 'i', 's', ' ', 'm', 'i', 'n', 'u', 't', 'e'], ['l', 'a', 's', 't', ' ', 'm', 'o', 'n', 't', 'h'], ['m', 'a', 'd', 'i', 'ɓ', 'ɛ', 'd', 'i', 'ɓ', 'ɛ'], ['n', 'e', 'x', 't', ' ', 'm', 'o', 'n', 't', 'h'], ['t', 'h', 'i', 's', ' ', 'm', 'o', 'n', 't', 'h'], ['e', 's', 'ɔ', 'p', 'ɛ', 's', 'ɔ', 'p', 'ɛ'], ['l', 'a', 's', 't', ' ', 'w', 'e', 'e', 'k'], ['l', 'a', 's', 't', ' ', 'y', 'e', 'a', 'r'], ['n', 'e', 'x', 't', ' ', 'w', 'e', 'e', 'k'], ['n', 'e', 'x', 't', ' ', 'y', 'e', 'a', 'r'], ['t', 'h', 'i', 's', ' ', 'h', 'o', 'u', 'r'], ['t', 'h', 'i', 's', ' ', 'w', 'e', 'e', 'k'], ['t', 'h', 'i', 's', ' ', 'y', 'e', 'a', 'r'], ['d', 'i', 'ŋ', 'g', 'i', 'n', 'd', 'i'], ['e', 'm', 'i', 'a', 's', 'e', 'l', 'e'], ['e', 's', 'a', 'ɓ', 'a', 's', 'u'], ['n', 'y', 'ɛ', 't', 'ɛ', 'k', 'i'], ['d', 'i', 'm', 'ɔ', 'd', 'i'], ['d', 'i', 's', 'a', 'm', 'a'], ['d', 'i', 'ɓ', 'a', 'ɓ', 'a'], ['e', 'b', 'y', 'a', 'm', 'u'], ['e', 'l', 'a', 'ŋ', 'g', 'ɛ'], ['m', 'a', 'y', 'e', 's', 'ɛ'], ['m', 'u', 'k', 'ɔ', 's', 'u'], ['t', 'i', 'n', 'i', 'n', 'i'], ['ŋ', 'g', 'a', 'n', 'd', 'ɛ'], ['ŋ', 'g', 'ɔ', 'n', 'd', 'ɛ'], ['ɗ', 'o', 'n', 'ɛ', 's', 'u'], ['b', 'u', 'n', 'y', 'a'], ['i', 'd', 'i', 'ɓ', 'a'], ['k', 'i', 'ɛ', 'l', 'ɛ'], ['k', 'w', 'a', 's', 'u'], ['n', 'd', 'ɔ', 'k', 'ɔ'], ['p', 'i', 'n', 'd', 'i'], ['w', 'ɛ', 'ŋ', 'g', 'ɛ'], ['ŋ', 'g', 'i', 's', 'u'], ['m', 'ɔ', 'd', 'i'], ['m', 'ɔ', 's', 'u'], ['n', 'y', 'ɛ', 't'], ['s', 'ɔ', 'ŋ', 'ɛ'], ['ŋ', 'g', 'ɔ', 'n'], ['d', 'i', 'ŋ'], ['d', 'i', 'ɓ'], ['e', 'l', 'a'], ['e', 'm', 'i'], ['e', 's', 'a'], ['e', 's', 'ɔ'], ['e', 't', 'i'], ['g', 'm', 't'], ['k', 'w', 'a'], ['m', 'a', 'd'], ['m', 'a', 'y'], ['m', 'b', 'u'], ['m', 'u', 'k'], ['m', 'ɔ', 's'], ['n', 'o', 'w'], ['s', 'ɔ', 'ŋ'], ['t', 'i', 'n'], ['u', 't', 'c'], ['ŋ', 'g', 'i'], ['ɗ', 'o', 'n'], ['a', 'm'], ['d', 'i'], ['e', 't'], ['p', 'm'], [' '], ['\''], ['+'], [','], ['-'], ['.'], ['/'], [':'], [';'], ['@'], ['['], [']'], ['z'], ['|']] }

/-- internal/data/dyo.go: `dyo_Locale`. -/
def dyoLang : LangData := { dyoDict with
  knownWords :=
   [['t', 'h', 'i', 's', ' ', 'm', 'i', 'n', 'u', 't', 'e'], ['l', 'a', 's', 't', ' ', 'm', 'o', 'n', 't', 'h'], ['n', 'e', 'x', 't', ' ', 'm', 'o', 'n', 't', 'h'], ['t', 'h', 'i', 's', ' ', 'm', 'o', 'n', 't', 'h'], ['l', 'a', 's', 't', ' ', 'w', 'e', 'e', 'k'], ['l', 'a', 's', 't', ' ', 'y', 'e', 'a', 'r'], ['n', 'e', 'x', 't', ' ', 'w', 'e', 'e', 'k'], ['n', 'e', 'x', 't', ' ', 'y', 'e', 'a', 'r'], ['s', 'e', 't', 't', 'e', 'm', 'b', 'a', 'r'], ['t', 'h', 'i', 's', ' ', 'h', 'o', 'u', 'r'], ['t', 'h', 'i', 's', ' ', 'w', 'e', 'e', 'k'], ['t', 'h', 'i', 's', ' ', 'y', 'e', 'a', 'r'], ['a', 'r', 'a', 'm', 'i', 's', 'a', 'y'], ['d', 'i', 's', 'a', 'm', 'b', 'a', 'r'], ['n', 'o', 'v', 'e', 'm', 'b', 'a', 'r'], ['a', 'l', 'a', 'r', 'b', 'a', 'y'], ['f', 'e', 'b', 'i', 'r', 'i', 'e'], ['o', 'k', 't', 'o', 'b', 'a', 'r'], ['a', 'b', 'u', 'r', 'i', 'l'], ['a', 'r', 'j', 'u', 'm', 'a'], ['f', 'u', 'l', 'e', 'e', 'ŋ'], ['l', 'o', 'o', 'k', 'u', 'ŋ'], ['m', 'i', 'n', 'u', 't', 'e'], ['s', 'a', 'n', 'v', 'i', 'e'], ['s', 'e', 'c', 'o', 'n', 'd'], ['s', 'i', 'b', 'i', 't', 'i'], ['s', 'u', 'u', 'y', 'e', 'e'], ['t', 'a', 'l', 'a', 't', 'a'], ['d', 'i', 'm', 'a', 's'], ['f', 'u', 'c', 'e', 'n'], ['f', 'u', 'n', 'a', 'k'], ['k', 'a', 'j', 'o', 'm'], ['t', 'e', 'n', 'e', 'ŋ'], ['e', 'm', 'i', 't'], ['h', 'o', 'u', 'r'], ['j', 'a', 'a', 't'], ['m', 'a', 'r', 's'], ['s', 'u', 'e', 'ŋ'], ['a', 'l', 'a'], ['a', 'r', 'a'], ['a', 'r', 'j'], ['d', 'i', 'm'], ['g', 'm', 't'], ['m', 'e', 'e'], ['n', 'o', 'w'], ['s', 'i', 'b'], ['t', 'a', 'l'], ['t', 'e', 'n'], ['u', 't', 'c'], ['a', 'b'], ['a', 'm'], ['d', 'e'], ['f', 'e'], ['m', 'a'], ['m', 'e'], ['n', 'o'], ['o', 'k'], ['p', 'm'], ['s', 'a'], ['s', 'e'], ['s', 'u'], ['u', 't'], [' '], ['\''], ['+'], [','], ['-'], ['.'], ['/'], [':'], [';'], ['@'], ['['], [']'], ['z'], ['|']] }

/-- internal/data/dz.go: `dz_Locale`. -/
def dzLang : LangData := { dzDict with
  relativeRegexes :=
   [(.seqs [.lit ['བ', 'ང', 'ན', '་', 'ཕ', 'ག', '་', ' '], .grp 1 (.number), .lit [' ', 'ཧ', '་', 'མ', '་']], [.ref 1, .lit [' ', 'w', 'e', 'e', 'k', ' ', 'a', 'g', 'o']]),
    (.seqs [.lit ['བ', 'ང', 'ན', '་', 'ཕ', 'ག', '་', ' '], .grp 1 (.number), .lit [' ', 'ན', 'ང', '་']], [.lit ['i', 'n', ' '], .ref 1, .lit [' ', 'w', 'e', 'e', 'k']]),
    (.seqs [.lit ['ལ', '་', 'འ', 'ཁ', 'ར', '་', ' '], .grp 1 (.number), .lit [' ', 'ཧ', '་', 'མ', '་']], [.ref 1, .lit [' ', 'y', 'e', 'a', 'r', ' ', 'a', 'g', 'o']]),
    (.seqs [.lit ['ཆ', '་', 'ཚ', 'ད', '་', ' '], .grp 1 (.number), .lit [' ', 'ཧ', '་', 'མ', '་']], [.ref 1, .lit [' ', 'h', 'o', 'u', 'r', ' ', 'a', 'g', 'o']]),
    (.seqs [.lit ['ལ', '་', 'འ', 'ཁ', 'ར', '་', ' '], .grp 1 (.number), .lit [' ', 'ན', 'ང', '་']], [.lit ['i', 'n', ' '], .ref 1, .lit [' ', 'y', 'e', 'a', 'r']]),
    (.seqs [.lit ['ས', 'ར', '་', 'ཆ', '་', ' '], .grp 1 (.number), .lit [' ', 'ཧ', '་', 'མ', '་']], [.ref 1, .lit [' ', 's', 'e', 'c', 'o', 'n', 'd', ' ', 'a', 'g', 'o']]),
    (.seqs [.lit ['ས', 'ར', '་', 'མ', '་', ' '], .grp 1 (.number), .lit [' ', 'ཧ', '་', 'མ', '་']], [.ref 1, .lit [' ', 'm', 'i', 'n', 'u', 't', 'e', ' ', 'a', 'g', 'o']]),
    (.seqs [.lit ['ཆ', '་', 'ཚ', 'ད', '་', ' '], .grp 1 (.number), .lit [' ', 'ན', 'ང', '་']], [.lit ['i', 'n', ' '], .ref 1, .lit [' ', 'h', 'o', 'u', 'r']]),
    (.seqs [.lit ['ཉ', 'ན', 'མ', '་', ' '], .grp 1 (.number), .lit [' ', 'ཧ', '་', 'མ', '་']], [.ref 1, .lit [' ', 'd', 'a', 'y', ' ', 'a', 'g', 'o']]),
    (.seqs [.lit ['ས', 'ར', '་', 'ཆ', '་', ' '], .grp 1 (.number), .lit [' ', 'ན', 'ང', '་']], [.lit ['i', 'n', ' '], .ref 1, .lit [' ', 's', 'e', 'c', 'o', 'n', 'd']]),
    (.seqs [.lit ['ས', 'ར', '་', 'མ', '་', ' '], .grp 1 (.number), .lit [' ', 'ན', 'ང', '་']], [.lit ['i', 'n', ' '], .ref 1, .lit [' ', 'm', 'i', 'n', 'u', 't', 'e']]),
    (.seqs [.lit ['ཉ', 'ན', 'མ', '་', ' '], .grp 1 (.number), .lit [' ', 'ན', 'ང', '་']], [.lit ['i', 'n', ' '], .ref 1, .lit [' ', 'd', 'a', 'y']]),
    (.seqs [.lit ['ཟ', 'ཝ', '་', ' '], .grp 1 (.number), .lit [' ', 'ཧ', '་', 'མ', '་']], [.ref 1, .lit [' ', 'm', 'o', 'n', 't', 'h', ' ', 'a', 'g', 'o']]),
    (.seqs [.lit ['ཟ', 'ཝ', '་', ' '], .grp 1 (.number), .lit [' ', 'ན', 'ང', '་']], [.lit ['i', 'n', ' '], .ref 1, .lit [' ', 'm', 'o', 'n', 't', 'h']])],
  rxCombined := some (.seqs [.grp 1 (.alts [.bos, .cls true [.letter, .mark, .digit], .lit ['_']]), .grp 2 (.alts [.seqs [.lit ['བ', 'ང', 'ན', '་', 'ཕ', 'ག', '་', ' '], .number, .lit [' ', 'ཧ', '་', 'མ', '་']], .seqs [.lit ['བ', 'ང', 'ན', '་', 'ཕ', 'ག', '་', ' '], .number, .lit [' ', 'ན', 'ང', '་']], .seqs [.lit ['ལ', '་', 'འ', 'ཁ', 'ར', '་', ' '], .number, .lit [' ', 'ཧ', '་', 'མ', '་']], .seqs [.lit ['ཆ', '་', 'ཚ', 'ད', '་', ' '], .number, .lit [' ', 'ཧ', '་', 'མ', '་']], .seqs [.lit ['ལ', '་', 'འ', 'ཁ', 'ར', '་', ' '], .number, .lit [' ', 'ན', 'ང', '་']], .seqs [.lit ['ས', 'ར', '་', 'ཆ', '་', ' '], .number, .lit [' ', 'ཧ', '་', 'མ', '་']], .seqs [.lit ['ས', 'ར', '་', 'མ', '་', ' '], .number, .lit [' ', 'ཧ', '་', 'མ', '་']], .seqs [.lit ['ཆ', '་', 'ཚ', 'ད', '་', ' '], .number, .lit [' ', 'ན', 'ང', '་']], .seqs [.lit ['ཉ', 'ན', 'མ', '་', ' '], .number, .lit [' ', 'ཧ', '་', 'མ', '་']], .seqs [.lit ['ས', 'ར', '་', 'ཆ', '་', ' '], .number, .lit [' ', 'ན', 'ང', '་']], .seqs [.lit ['ས', 'ར', '་', 'མ', '་', ' '], .number, .lit [' ', 'ན', 'ང', '་']], .seqs [.lit ['ཉ', 'ན', 'མ', '་', ' '], .number, .lit [' ', 'ན', 'ང', '་']], .seqs [.lit ['ཟ', 'ཝ', '་', ' '], .number, .lit [' ', 'ཧ', '་', 'མ', '་']], .seqs [.lit ['ཟ', 'ཝ', '་', ' '], .number, .lit [' ', 'ན', 'ང', '་']]]), .grp 3 (.alts [.eos, .cls true [.letter, .mark, .digit], .lit ['_']])], 3),
  rxExact := some (.seqs [.bos, .grp 1 (.alts [.seqs [.lit ['བ', 'ང', 'ན', '་', 'ཕ', 'ག', '་', ' '], .number, .lit [' ', 'ཧ', '་', 'མ', '་']], .seqs [.lit ['བ', 'ང', 'ན', '་', 'ཕ', 'ག', '་', ' '], .number, .lit [' ', 'ན', 'ང', '་']], .seqs [.lit ['ལ', '་', 'འ', 'ཁ', 'ར', '་', ' '], .number, .lit [' ', 'ཧ', '་', 'མ', '་']], .seqs [.lit ['ཆ', '་', 'ཚ', 'ད', '་', ' '], .number, .lit [' ', 'ཧ', '་', 'མ', '་']], .seqs [.lit ['ལ', '་', 'འ', 'ཁ', 'ར', '་', ' '], .number, .lit [' ', 'ན', 'ང', '་']], .seqs [.lit ['ས', 'ར', '་', 'ཆ', '་', ' '], .number, .lit [' ', 'ཧ', '་', 'མ', '་']], .seqs [.lit ['ས', 'ར', '་', 'མ', '་', ' '], .number, .lit [' ', 'ཧ', '་', 'མ', '་']], .seqs [.lit ['ཆ', '་', 'ཚ', 'ད', '་', ' '], .number, .lit [' ', 'ན', 'ང', '་']], .seqs [.lit ['ཉ', 'ན', 'མ', '་', ' '], .number, .lit [' ', 'ཧ', '་', 'མ', '་']], .seqs [.lit ['ས', 'ར', '་', 'ཆ', '་', ' '], .number, .lit [' ', 'ན', 'ང', '་']], .seqs [.lit ['ས', 'ར', '་', 'མ', '་', ' '], .number, .lit [' ', 'ན', 'ང', '་']], .seqs [.lit ['ཉ', 'ན', 'མ', '་', ' '], .number, .lit [' ', 'ན', 'ང', '་']], .seqs [.lit ['ཟ', 'ཝ', '་', ' '], .number, .lit [' ', 'ཧ', '་', 'མ', '་']], .seqs [.lit ['ཟ', 'ཝ', '་', ' '], .number, .lit [' ', 'ན', 'ང', '་']]]), .eos]),
  knownWords :=
   [['ས', '་', 'ཟ', '་', 'བ', 'ཅ', '་', 'ག', 'ཅ', 'ག', '་', 'པ', '་'], ['ས', '་', 'ཟ', '་', 'བ', 'ཅ', '་', 'ག', 'ཉ', 'ས', '་', 'པ', '་'], ['t', 'h', 'i', 's', ' ', 'm', 'i', 'n', 'u', 't', 'e'], ['ག', 'ཟ', 'འ', '་', 'མ', 'ག', '་', 'ད', 'མ', 'ར', '་'], ['ཟ', '་', 'བ', 'ཅ', '་', 'ག', 'ཅ', 'ག', '་', 'པ', '་'], ['ཟ', '་', 'བ', 'ཅ', '་', 'ག', 'ཉ', 'ས', '་', 'པ', '་'], ['l', 'a', 's', 't', ' ', 'm', 'o', 'n', 't', 'h'], ['n', 'e', 'x', 't', ' ', 'm', 'o', 'n', 't', 'h'], ['t', 'h', 'i', 's', ' ', 'm', 'o', 'n', 't', 'h'], ['ག', 'ཟ', 'འ', '་', 'པ', '་', 'ས', 'ང', 'ས', '་'], ['ས', '་', 'ཟ', '་', 'ག', 'ཉ', 'ས', '་', 'པ', '་'], ['ས', '་', 'ཟ', '་', 'ག', 'ས', 'མ', '་', 'པ', '་'], ['ས', '་', 'ཟ', '་', 'བ', 'ད', 'ན', '་', 'པ', '་'], ['ས', '་', 'ཟ', '་', 'བ', 'ར', 'ད', '་', 'པ', '་'], ['l', 'a', 's', 't', ' ', 'w', 'e', 'e', 'k'], ['l', 'a', 's', 't', ' ', 'y', 'e', 'a', 'r'], ['n', 'e', 'x', 't', ' ', 'w', 'e', 'e', 'k'], ['n', 'e', 'x', 't', ' ', 'y', 'e', 'a', 'r'], ['t', 'h', 'i', 's', ' ', 'h', 'o', 'u', 'r'], ['t', 'h', 'i', 's', ' ', 'w', 'e', 'e', 'k'], ['t', 'h', 'i', 's', ' ', 'y', 'e', 'a', 'r'], ['ག', 'ཟ', 'འ', '་', 'ཕ', 'ར', '་', 'བ', '་'], ['ག', 'ཟ', 'འ', '་', 'ལ', 'ག', '་', 'པ', '་'], ['ག', 'ཟ', 'འ', '་', 'ས', 'ན', '་', 'པ', '་'], ['ས', '་', 'ཟ', '་', 'ད', 'ག', '་', 'པ', '་'], ['ས', '་', 'ཟ', '་', 'བ', 'ཅ', '་', 'པ', '་'], ['ག', 'ཟ', 'འ', '་', 'ཉ', '་', 'མ', '་'], ['ག', 'ཟ', 'འ', '་', 'ཟ', '་', 'བ', '་'], ['ཟ', '་', 'ག', 'ཉ', 'ས', '་', 'པ', '་'], ['ཟ', '་', 'ག', 'ས', 'མ', '་', 'པ', '་'], ['ཟ', '་', 'བ', 'ད', 'ན', '་', 'པ', '་'], ['ཟ', '་', 'བ', 'ར', 'ད', '་', 'པ', '་'], ['ས', '་', 'ཟ', '་', 'ད', 'ག', '་', 'པ'], ['ས', '་', 'ཟ', '་', 'ད', 'ང', 'པ', '་'], ['ས', '་', 'ཟ', '་', 'བ', 'ཞ', '་', 'པ'], ['ས', '་', 'ཟ', '་', 'ལ', '་', 'པ', '་'], ['ཟ', '་', 'ད', 'ག', '་', 'པ', '་'], ['ཟ', '་', 'བ', 'ཅ', '་', 'པ', '་'], ['ཟ', '་', 'བ', 'ཞ', '་', 'པ', '་'], ['ན', 'ང', 'ས', '་', 'པ', '་'], ['བ', 'ད', 'ན', '་', 'ཕ', 'ག'], ['ཟ', '་', 'ད', 'ག', '་', 'པ'], ['ཟ', '་', 'ད', 'ང', 'པ', '་'], ['ཟ', '་', 'ལ', '་', 'པ', '་'], ['ད', '་', 'ར', 'ས', '་'], ['ས', 'ར', '་', 'ཆ', '་'], ['ཁ', '་', 'ཙ', '་'], ['ཆ', '་', 'ཚ', 'ད'], ['ཕ', '་', 'ཆ', '་'], ['ཟ', '་', '༡', '༠'], ['ཟ', '་', '༡', '༡'], ['ཟ', '་', '༡', '༢'], ['ཟ', '་', 'ཝ', '་'], ['ས', '་', 'ཆ', '་'], ['ས', 'ང', 'ས', '་'], ['ས', 'ར', '་', 'མ'], ['g', 'm', 't'], ['n', 'o', 'w'], ['u', 't', 'c'], ['ཕ', 'ར', '་'], ['མ', 'ར', '་'], ['ཚ', 'ས', '་'], ['ཟ', '་', '༡'], ['ཟ', '་', '༢'], ['ཟ', '་', '༣'], ['ཟ', '་', '༤'], ['ཟ', '་', '༥'], ['ཟ', '་', '༦'], ['ཟ', '་', '༧'], ['ཟ', '་', '༨'], ['ཟ', '་', '༩'], ['ལ', 'ག', '་'], ['ས', 'ན', '་'], ['a', 'm'], ['p', 'm'], ['ཉ', '་'], ['ཟ', '་'], [' '], ['\''], ['+'], [','], ['-'], ['.'], ['/'], [':'], [';'], ['@'], ['['], [']'], ['z'], ['|'], ['ལ']] }

/-- internal/data/ebu.go: `ebu_Locale`. -/
def ebuLang : LangData := { ebuDict with
  knownWords :=
   [['m', 'w', 'e', 'r', 'i', ' ', 'w', 'a', ' ', 'i', 'k', 'u', 'm', 'i', ' ', 'n', 'a', ' ', 'k', 'a', 'i', 'r', 'i'], ['m', 'w', 'e', 'r', 'i', ' ', 'w', 'a', ' ', 'i', 'k', 'u', 'm', 'i', ' ', 'n', 'a', ' ', 'u', 'm', 'w', 'e'], ['m', 'w', 'e', 'r', 'i', ' ', 'w', 'a', ' ', 'g', 'a', 't', 'a', 'n', 't', 'a', 't', 'u'], ['m', 'w', 'e', 'r', 'i', ' ', 'w', 'a', ' ', 'm', 'u', 'g', 'w', 'a', 'n', 'j', 'a'], ['m', 'w', 'e', 'r', 'i', ' ', 'w', 'a', ' ', 'k', 'a', 't', 'h', 'a', 't', 'u'], ['m', 'w', 'e', 'r', 'i', ' ', 'w', 'a', ' ', 'g', 'a', 't', 'a', 'n', 'o'], ['m', 'w', 'e', 'r', 'i', ' ', 'w', 'a', ' ', 'k', 'a', 'n', 'a', 'n', 'a'], ['m', 'w', 'e', 'r', 'i', ' ', 'w', 'a', ' ', 'i', 'k', 'u', 'm', 'i'], ['m', 'w', 'e', 'r', 'i', ' ', 'w', 'a', ' ', 'k', 'a', 'i', 'r', 'i'], ['m', 'w', 'e', 'r', 'i', ' ', 'w', 'a', ' ', 'k', 'e', 'n', 'd', 'a'], ['m', 'w', 'e', 'r', 'i', ' ', 'w', 'a', ' ', 'm', 'b', 'e', 'r', 'e'], ['m', 'w', 'e', 'r', 'i', ' ', 'w', 'a', ' ', 'k', 'a', 'n', 'a'], ['n', 'j', 'u', 'm', 'a', 'm', 'o', 't', 'h', 'i', 'i'], ['t', 'h', 'i', 's', ' ', 'm', 'i', 'n', 'u', 't', 'e'], ['l', 'a', 's', 't', ' ', 'm', 'o', 'n', 't', 'h'], ['n', 'e', 'x', 't', ' ', 'm', 'o', 'n', 't', 'h'], ['t', 'h', 'i', 's', ' ', 'm', 'o', 'n', 't', 'h'], ['l', 'a', 's', 't', ' ', 'w', 'e', 'e', 'k'], ['l', 'a', 's', 't', ' ', 'y', 'e', 'a', 'r'], ['n', 'e', 'x', 't', ' ', 'w', 'e', 'e', 'k'], ['n', 'e', 'x', 't', ' ', 'y', 'e', 'a', 'r'], ['n', 'j', 'u', 'm', 'a', 't', 'a', 'n', 'o'], ['n', 'j', 'u', 'm', 'a', 't', 'a', 't', 'u'], ['t', 'h', 'i', 's', ' ', 'h', 'o', 'u', 'r'], ['t', 'h', 'i', 's', ' ', 'w', 'e', 'e', 'k'], ['t', 'h', 'i', 's', ' ', 'y', 'e', 'a', 'r'], ['a', 'r', 'a', 'm', 'i', 't', 'h', 'i'], ['m', 'u', 't', 'h', 'e', 'n', 'y', 'a'], ['n', 'j', 'u', 'm', 'a', 'i', 'n', 'e'], ['n', 'd', 'a', 'g', 'i', 'k', 'a'], ['s', 'e', 'k', 'o', 'n', 'd', 'i'], ['u', 'm', 'u', 'n', 't', 'h', 'i'], ['k', 'i', 'u', 'm', 'i', 'a'], ['n', 'j', 'u', 'm', 'a', 'a'], ['i', 'g', 'o', 'r', 'o'], ['i', 't', 'h', 'a', 'a'], ['m', 'w', 'a', 'k', 'a'], ['m', 'w', 'e', 'r', 'i'], ['r', 'u', 'c', 'i', 'u'], ['a', 'r', 'm'], ['g', 'a', 'n'], ['g', 'a', 't'], ['g', 'm', 't'], ['i', 'g', 'i'], ['i', 'k', 'u'], ['i', 'm', 'w'], ['i', 'n', 'e'], ['k', 'a', 'i'], ['k', 'a', 'n'], ['k', 'a', 't'], ['k', 'e', 'n'], ['k', 'm', 'a'], ['k', 'n', 'n'], ['m', 'a', 'a'], ['m', 'b', 'e'], ['m', 'u', 'g'], ['n', 'm', 'm'], ['n', 'o', 'w'], ['t', 'a', 'n'], ['t', 'a', 't'], ['u', 't', 'c'], ['a', 'm'], ['k', 'i'], ['p', 'm'], ['u', 't'], [' '], ['\''], ['+'], [','], ['-'], ['.'], ['/'], [':'], [';'], ['@'], ['['], [']'], ['z'], ['|']] }

/-- internal/data/ee.go: `ee_Locale`. -/
def eeLang : LangData := { eeDict with
  relativeRegexes :=
   [(.seqs [.lit ['a'], .cls false [.rng 'Ɖ' 'Ɖ', .rng 'ɖ' 'ɖ'], .lit ['a', 'b', 'a'], .cls false [.rng 'Ƒ' 'Ƒ', .rng 'ƒ' 'ƒ'], .lit ['o'], .cls false [.rng 'Ƒ' 'Ƒ', .rng 'ƒ' 'ƒ'], .lit ['o', ' '], .grp 1 (.number), .lit [' ', 's', 'i', ' ', 'w', 'o', ' ', 'v', 'a', ' ', 'y', 'i']], [.ref 1, .lit [' ', 'm', 'i', 'n', 'u', 't', 'e', ' ', 'a', 'g', 'o']]),
    (.seqs [.lit ['a'], .cls false [.rng 'Ɖ' 'Ɖ', .rng 'ɖ' 'ɖ'], .lit ['a', 'b', 'a'], .cls false [.rng 'Ƒ' 'Ƒ', .rng 'ƒ' 'ƒ'], .lit ['o'], .cls false [.rng 'Ƒ' 'Ƒ', .rng 'ƒ' 'ƒ'], .lit ['o', ' '], .grp 1 (.number), .lit [' ', 's', 'i', ' ', 'v', 'a', ' ', 'y', 'i']], [.ref 1, .lit [' ', 'm', 'i', 'n', 'u', 't', 'e', ' ', 'a', 'g', 'o']]),
    (.seqs [.lit ['g', 'a'], .cls false [.rng 'Ƒ' 'Ƒ', .rng 'ƒ' 'ƒ'], .lit ['o'], .cls false [.rng 'Ƒ' 'Ƒ', .rng 'ƒ' 'ƒ'], .lit ['o', ' '], .grp 1 (.number), .lit [' ', 's', 'i', ' ', 'w', 'o', ' ', 'v', 'a', ' ', 'y', 'i']], [.ref 1, .lit [' ', 'h', 'o', 'u', 'r', ' ', 'a', 'g', 'o']]),
    (.seqs [.lit ['k'], .cls false [.rng 'Ɔ' 'Ɔ', .rng 'ɔ' 'ɔ'], .lit ['s', 'i'], .cls false [.rng 'Ɖ' 'Ɖ', .rng 'ɖ' 'ɖ'], .lit ['a', ' '], .grp 1 (.number), .lit [' ', 's', 'i', ' ', 'w', 'o', ' ', 'v', 'a', ' ', 'y', 'i']], [.ref 1, .lit [' ', 'w', 'e', 'e', 'k', ' ', 'a', 'g', 'o']]),
    (.seqs [.lit ['l', 'e', ' ', 'a'], .cls false [.rng 'Ɖ' 'Ɖ', .rng 'ɖ' 'ɖ'], .lit ['a', 'b', 'a'], .cls false [.rng 'Ƒ' 'Ƒ', .rng 'ƒ' 'ƒ'], .lit ['o'], .cls false [.rng 'Ƒ' 'Ƒ', .rng 'ƒ' 'ƒ'], .lit ['o', ' '], .grp 1 (.number), .lit [' ', 'w', 'o', ' ', 'm', 'e']], [.lit ['i', 'n', ' '], .ref 1, .lit [' ', 'm', 'i', 'n', 'u', 't', 'e']]),
    (.seqs [.lit ['s', 'e', 'k', 'e', 'n', 'd', ' '], .grp 1 (.number), .lit [' ', 's', 'i', ' ', 'w', 'o', ' ', 'v', 'a', ' ', 'y', 'i']], [.ref 1, .lit [' ', 's', 'e', 'c', 'o', 'n', 'd', ' ', 'a', 'g', 'o']]),
    (.seqs [.lit ['l', 'e', ' '], .cls false [.rng 'Ƒ' 'Ƒ', .rng 'ƒ' 'ƒ'], .lit ['e', ' '], .grp 1 (.number), .lit [' ', 's', 'i', ' ', 'g', 'b'], .cls false [.rng 'Ɔ' 'Ɔ', .rng 'ɔ' 'ɔ'], .lit ['n', 'a', ' ', 'm', 'e']], [.lit ['i', 'n', ' '], .ref 1, .lit [' ', 'y', 'e', 'a', 'r']]),
    (.seqs [.lit ['l', 'e', ' '], .cls false [.rng 'Ƒ' 'Ƒ', .rng 'ƒ' 'ƒ'], .lit ['e', ' '], .grp 1 (.number), .lit [' ', 's', 'i', ' ', 'v', 'a', ' ', 'y', 'i', ' ', 'm', 'e']], [.ref 1, .lit [' ', 'y', 'e', 'a', 'r', ' ', 'a', 'g', 'o']]),
    (.seqs [.cls false [.rng 'Ŋ' 'Ŋ', .rng 'ŋ' 'ŋ'], .lit ['k', 'e', 'k', 'e', ' '], .grp 1 (.number), .lit [' ', 's', 'i', ' ', 'w', 'o', ' ', 'v', 'a', ' ', 'y', 'i']], [.ref 1, .lit [' ', 'd', 'a', 'y', ' ', 'a', 'g', 'o']]),
    (.seqs [.cls false [.rng 'Ɣ' 'Ɣ', .rng 'ɣ' 'ɣ'], .lit ['l', 'e', 't', 'i', ' '], .grp 1 (.number), .lit [' ', 's', 'i', ' ', 'w', 'o', ' ', 'v', 'a', ' ', 'y', 'i']], [.ref 1, .lit [' ', 'm', 'o', 'n', 't', 'h', ' ', 'a', 'g', 'o']]),
    (.seqs [.lit ['g', 'a'], .cls false [.rng 'Ƒ' 'Ƒ', .rng 'ƒ' 'ƒ'], .lit ['o'], .cls false [.rng 'Ƒ' 'Ƒ', .rng 'ƒ' 'ƒ'], .lit ['o', ' '], .grp 1 (.number), .lit [' ', 's', 'i', ' ', 'v', 'a', ' ', 'y', 'i']], [.ref 1, .lit [' ', 'h', 'o', 'u', 'r', ' ', 'a', 'g', 'o']]),
    (.seqs [.lit ['k'], .cls false [.rng 'Ɔ' 'Ɔ', .rng 'ɔ' 'ɔ'], .lit ['s', 'i'], .cls false [.rng 'Ɖ' 'Ɖ', .rng 'ɖ' 'ɖ'], .lit ['a', ' '], .grp 1 (.number), .lit [' ', 's', 'i', ' ', 'v', 'a', ' ', 'y', 'i']], [.ref 1, .lit [' ', 'w', 'e', 'e', 'k', ' ', 'a', 'g', 'o']]),
    (.seqs [.lit ['l', 'e', ' ', 'a'], .cls false [.rng 'Ɖ' 'Ɖ', .rng 'ɖ' 'ɖ'], .lit ['a', 'b', 'a'], .cls false [.rng 'Ƒ' 'Ƒ', .rng 'ƒ' 'ƒ'], .lit ['o'], .cls false [.rng 'Ƒ' 'Ƒ', .rng 'ƒ' 'ƒ'], .lit ['o', ' '], .grp 1 (.number), .lit [' ', 'm', 'e']], [.lit ['i', 'n', ' '], .ref 1, .lit [' ', 'm', 'i', 'n', 'u', 't', 'e']]),
    (.seqs [.lit ['l', 'e', ' ', 'g', 'a'], .cls false [.rng 'Ƒ' 'Ƒ', .rng 'ƒ' 'ƒ'], .lit ['o'], .cls false [.rng 'Ƒ' 'Ƒ', .rng 'ƒ' 'ƒ'], .lit ['o', ' '], .grp 1 (.number), .lit [' ', 'w', 'o', ' ', 'm', 'e']], [.lit ['i', 'n', ' '], .ref 1, .lit [' ', 'h', 'o', 'u', 'r']]),
    (.seqs [.lit ['l', 'e', ' ', 'k'], .cls false [.rng 'Ɔ' 'Ɔ', .rng 'ɔ' 'ɔ'], .lit ['s', 'i'], .cls false [.rng 'Ɖ' 'Ɖ', .rng 'ɖ' 'ɖ'], .lit ['a', ' '], .grp 1 (.number), .lit [' ', 'w', 'o', ' ', 'm', 'e']], [.lit ['i', 'n', ' '], .ref 1, .lit [' ', 'w', 'e', 'e', 'k']]),
    (.seqs [.lit ['l', 'e', ' ', 's', 'e', 'k', 'e', 'n', 'd', ' '], .grp 1 (.number), .lit [' ', 'w', 'o', ' ', 'm', 'e']], [.lit ['i', 'n', ' '], .ref 1, .lit [' ', 's', 'e', 'c', 'o', 'n', 'd']]),
    (.seqs [.lit ['s', 'e', 'k', 'e', 'n', 'd', ' '], .grp 1 (.number), .lit [' ', 's', 'i', ' ', 'v', 'a', ' ', 'y', 'i']], [.ref 1, .lit [' ', 's', 'e', 'c', 'o', 'n', 'd', ' ', 'a', 'g', 'o']]),
    (.seqs [.lit ['l', 'e', ' '], .cls false [.rng 'Ŋ' 'Ŋ', .rng 'ŋ' 'ŋ'], .lit ['k', 'e', 'k', 'e', ' '], .grp 1 (.number), .lit [' ', 'w', 'o', ' ', 'm', 'e']], [.lit ['i', 'n', ' '], .ref 1, .lit [' ', 'd', 'a', 'y']]),
    (.seqs [.lit ['l', 'e', ' '], .cls false [.rng 'Ɣ' 'Ɣ', .rng 'ɣ' 'ɣ'], .lit ['l', 'e', 't', 'i', ' '], .grp 1 (.number), .lit [' ', 'w', 'o', ' ', 'm', 'e']], [.lit ['i', 'n', ' '], .ref 1, .lit [' ', 'm', 'o', 'n', 't', 'h']]),
    (.seqs [.cls false [.rng 'Ŋ' 'Ŋ', .rng 'ŋ' 'ŋ'], .lit ['k', 'e', 'k', 'e', ' '], .grp 1 (.number), .lit [' ', 's', 'i', ' ', 'v', 'a', ' ', 'y', 'i']], [.ref 1, .lit [' ', 'd', 'a', 'y', ' ', 'a', 'g', 'o']]),
    (.seqs [.cls false [.rng 'Ƒ' 'Ƒ', .rng 'ƒ' 'ƒ'], .lit ['e', ' '], .grp 1 (.number), .lit [' ', 's', 'i', ' ', 'v', 'a', ' ', 'y', 'i', ' ', 'm', 'e']], [.ref 1, .lit [' ', 'y', 'e', 'a', 'r', ' ', 'a', 'g', 'o']]),
    (.seqs [.cls false [.rng 'Ƒ' 'Ƒ', .rng 'ƒ' 'ƒ'], .lit ['e', ' '], .grp 1 (.number), .lit [' ', 's', 'i', ' ', 'w', 'o', ' ', 'v', 'a', ' ', 'y', 'i']], [.ref 1, .lit [' ', 'y', 'e', 'a', 'r', ' ', 'a', 'g', 'o']]),
    (.seqs [.cls false [.rng 'Ɣ' 'Ɣ', .rng 'ɣ' 'ɣ'], .lit ['l', 'e', 't', 'i', ' '], .grp 1 (.number), .lit [' ', 's', 'i', ' ', 'v', 'a', ' ', 'y', 'i']], [.ref 1, .lit [' ', 'm', 'o', 'n', 't', 'h', ' ', 'a', 'g', 'o']]),
    (.seqs [.lit ['l', 'e', ' ', 'g', 'a'], .cls false [.rng 'Ƒ' 'Ƒ', .rng 'ƒ' 'ƒ'], .lit ['o'], .cls false [.rng 'Ƒ' 'Ƒ', .rng 'ƒ' 'ƒ'], .lit ['o', ' '], .grp 1 (.number), .lit [' ', 'm', 'e']], [.lit ['i', 'n', ' '], .ref 1, .lit [' ', 'h', 'o', 'u', 'r']]),
    (.seqs [.lit ['l', 'e', ' ', 'k'], .cls false [.rng 'Ɔ' 'Ɔ', .rng 'ɔ' 'ɔ'], .lit ['s', 'i'], .cls false [.rng 'Ɖ' 'Ɖ', .rng 'ɖ' 'ɖ'], .lit ['a', ' '], .grp 1 (.number), .lit [' ', 'm', 'e']], [.lit ['i', 'n', ' '], .ref 1, .lit [' ', 'w', 'e', 'e', 'k']]),
    (.seqs [.lit ['l', 'e', ' ', 's', 'e', 'k', 'e', 'n', 'd', ' '], .grp 1 (.number), .lit [' ', 'm', 'e']], [.lit ['i', 'n', ' '], .ref 1, .lit [' ', 's', 'e', 'c', 'o', 'n', 'd']]),
    (.seqs [.lit ['l', 'e', ' '], .cls false [.rng 'Ŋ' 'Ŋ', .rng 'ŋ' 'ŋ'], .lit ['k', 'e', 'k', 'e', ' '], .grp 1 (.number), .lit [' ', 'm', 'e']], [.lit ['i', 'n', ' '], .ref 1, .lit [' ', 'd', 'a', 'y']]),
    (.seqs [.lit ['l', 'e', ' '], .cls false [.rng 'Ɣ' 'Ɣ', .rng 'ɣ' 'ɣ'], .lit ['l', 'e', 't', 'i', ' '], .grp 1 (.number), .lit [' ', 'm', 'e']], [.lit ['i', 'n', ' '], .ref 1, .lit [' ', 'm', 'o', 'n', 't', 'h']]),
    (.seqs [.cls false [.rng 'Ƒ' 'Ƒ', .rng 'ƒ' 'ƒ'], .lit ['e', ' '], .grp 1 (.number), .lit [' ', 's', 'i', ' ', 'v', 'a', ' ', 'y', 'i']], [.ref 1, .lit [' ', 'y', 'e', 'a', 'r', ' ', 'a', 'g', 'o']]),
    (.seqs [.lit ['l', 'e', ' '], .cls false [.rng 'Ƒ' 'Ƒ', .rng 'ƒ' 'ƒ'], .lit ['e', ' '], .grp 1 (.number), .lit [' ', 'm', 'e']], [.lit ['i', 'n', ' '], .ref 1, .lit [' ', 'y', 'e', 'a', 'r']])],
  rxCombined := some (.seqs [.grp 1 (.alts [.bos, .cls true [.letter, .mark, .digit], .lit ['_']]), .grp 2 (.alts [.seqs [.lit ['a'], .cls false [.rng 'Ɖ' 'Ɖ', .rng 'ɖ' 'ɖ'], .lit ['a', 'b', 'a'], .cls false [.rng 'Ƒ' 'Ƒ', .rng 'ƒ' 'ƒ'], .lit ['o'], .cls false [.rng 'Ƒ' 'Ƒ', .rng 'ƒ' 'ƒ'], .lit ['o', ' '], .number, .lit [' ', 's', 'i', ' ', 'w', 'o', ' ', 'v', 'a', ' ', 'y', 'i']], .seqs [.lit ['a'], .cls false [.rng 'Ɖ' 'Ɖ', .rng 'ɖ' 'ɖ'], .lit ['a', 'b', 'a'], .cls false [.rng 'Ƒ' 'Ƒ', .rng 'ƒ' 'ƒ'], .lit ['o'], .cls false [.rng 'Ƒ' 'Ƒ', .rng 'ƒ' 'ƒ'], .lit ['o', ' '], .number, .lit [' ', 's', 'i', ' ', 'v', 'a', ' ', 'y', 'i']], .seqs [.lit ['g', 'a'], .cls false [.rng 'Ƒ' 'Ƒ', .rng 'ƒ' 'ƒ'], .lit ['o'], .cls false [.rng 'Ƒ' 'Ƒ', .rng 'ƒ' 'ƒ'], .lit ['o', ' '], .number, .lit [' ', 's', 'i', ' ', 'w', 'o', ' ', 'v', 'a', ' ', 'y', 'i']], .seqs [.lit ['k'], .cls false [.rng 'Ɔ' 'Ɔ', .rng 'ɔ' 'ɔ'], .lit ['s', 'i'], .cls false [.rng 'Ɖ' 'Ɖ', .rng 'ɖ' 'ɖ'], .lit ['a', ' '], .number, .lit [' ', 's', 'i', ' ', 'w', 'o', ' ', 'v', 'a', ' ', 'y', 'i']], .seqs [.lit ['l', 'e', ' ', 'a'], .cls false [.rng 'Ɖ' 'Ɖ', .rng 'ɖ' 'ɖ'], .lit ['a', 'b', 'a'], .cls false [.rng 'Ƒ' 'Ƒ', .rng 'ƒ' 'ƒ'], .lit ['o'], .cls false [.rng 'Ƒ' 'Ƒ', .rng 'ƒ' 'ƒ'], .lit ['o', ' '], .number, .lit [' ', 'w', 'o', ' ', 'm', 'e']], .seqs [.lit ['s', 'e', 'k', 'e', 'n', 'd', ' '], .number, .lit [' ', 's', 'i', ' ', 'w', 'o', ' ', 'v', 'a', ' ', 'y', 'i']], .seqs [.lit ['l', 'e', ' '], .cls false [.rng 'Ƒ' 'Ƒ', .rng 'ƒ' 'ƒ'], .lit ['e', ' '], .number, .lit [' ', 's', 'i', ' ', 'g', 'b'], .cls false [.rng 'Ɔ' 'Ɔ', .rng 'ɔ' 'ɔ'], .lit ['n', 'a', ' ', 'm', 'e']], .seqs [.lit ['l', 'e', ' '], .cls false [.rng 'Ƒ' 'Ƒ', .rng 'ƒ' 'ƒ'], .lit ['e', ' '], .number, .lit [' ', 's', 'i', ' ', 'v', 'a', ' ', 'y', 'i', ' ', 'm', 'e']], .seqs [.cls false [.rng 'Ŋ' 'Ŋ', .rng 'ŋ' 'ŋ'], .lit ['k', 'e', 'k', 'e', ' '], .number, .lit [' ', 's', 'i', ' ', 'w', 'o', ' ', 'v', 'a', ' ', 'y', 'i']], .seqs [.cls false [.rng 'Ɣ' 'Ɣ', .rng 'ɣ' 'ɣ'], .lit ['l', 'e', 't', 'i', ' '], .number, .lit [' ', 's', 'i', ' ', 'w', 'o', ' ', 'v', 'a', ' ', 'y', 'i']], .seqs [.lit ['g', 'a'], .cls false [.rng 'Ƒ' 'Ƒ', .rng 'ƒ' 'ƒ'], .lit ['o'], .cls false [.rng 'Ƒ' 'Ƒ', .rng 'ƒ' 'ƒ'], .lit ['o', ' '], .number, .lit [' ', 's', 'i', ' ', 'v', 'a', ' ', 'y', 'i']], .seqs [.lit ['k'], .cls false [.rng 'Ɔ' 'Ɔ', .rng 'ɔ' 'ɔ'], .lit ['s', 'i'], .cls false [.rng 'Ɖ' 'Ɖ', .rng 'ɖ' 'ɖ'], .lit ['a', ' '], .number, .lit [' ', 's', 'i', ' ', 'v', 'a', ' ', 'y', 'i']], .seqs [.lit ['l', 'e', ' ', 'a'], .cls false [.rng 'Ɖ' 'Ɖ', .rng 'ɖ' 'ɖ'], .lit ['a', 'b', 'a'], .cls false [.rng 'Ƒ' 'Ƒ', .rng 'ƒ' 'ƒ'], .lit ['o'], .cls false [.rng 'Ƒ' 'Ƒ', .rng 'ƒ' 'ƒ'], .lit ['o', ' '], .number, .lit [' ', 'm', 'e']], .seqs [.lit ['l', 'e', ' ', 'g', 'a'], .cls false [.rng 'Ƒ' 'Ƒ', .rng 'ƒ' 'ƒ'], .lit ['o'], .cls false [.rng 'Ƒ' 'Ƒ', .rng 'ƒ' 'ƒ'], .lit ['o', ' '], .number, .lit [' ', 'w', 'o', ' ', 'm', 'e']], .seqs [.lit ['l', 'e', ' ', 'k'], .cls false [.rng 'Ɔ' 'Ɔ', .rng 'ɔ' 'ɔ'], .lit ['s', 'i'], .cls false [.rng 'Ɖ' 'Ɖ', .rng 'ɖ' 'ɖ'], .lit ['a', ' '], .number, .lit [' ', 'w', 'o', ' ', 'm', 'e']], .seqs [.lit ['l', 'e', ' ', 's', 'e', 'k', 'e', 'n', 'd', ' '], .number, .lit [' ', 'w', 'o', ' ', 'm', 'e']], .seqs [.lit ['s', 'e', 'k', 'e', 'n', 'd', ' '], .number, .lit [' ', 's', 'i', ' ', 'v', 'a', ' ', 'y', 'i']], .seqs [.lit ['l', 'e', ' '], .cls false [.rng 'Ŋ' 'Ŋ', .rng 'ŋ' 'ŋ'], .lit ['k', 'e', 'k', 'e', ' '], .number, .lit [' ', 'w', 'o', ' ', 'm', 'e']], .seqs [.lit ['l', 'e', ' '], .cls false [.rng 'Ɣ' 'Ɣ', .rng 'ɣ' 'ɣ'], .lit ['l', 'e', 't', 'i', ' '], .number, .lit [' ', 'w', 'o', ' ', 'm', 'e']], .seqs [.cls false [.rng 'Ŋ' 'Ŋ', .rng 'ŋ' 'ŋ'], .lit ['k', 'e', 'k', 'e', ' '], .number, .lit [' ', 's', 'i', ' ', 'v', 'a', ' ', 'y', 'i']], .seqs [.cls false [.rng 'Ƒ' 'Ƒ', .rng 'ƒ' 'ƒ'], .lit ['e', ' '], .number, .lit [' ', 's', 'i', ' ', 'v', 'a', ' ', 'y', 'i', ' ', 'm', 'e']], .seqs [.cls false [.rng 'Ƒ' 'Ƒ', .rng 'ƒ' 'ƒ'], .lit ['e', ' '], .number, .lit [' ', 's', 'i', ' ', 'w', 'o', ' ', 'v', 'a', ' ', 'y', 'i']], .seqs [.cls false [.rng 'Ɣ' 'Ɣ', .rng 'ɣ' 'ɣ'], .lit ['l', 'e', 't', 'i', ' '], .number, .lit [' ', 's', 'i', ' ', 'v', 'a', ' ', 'y', 'i']], .seqs [.lit ['l', 'e', ' ', 'g', 'a'], .cls false [.rng 'Ƒ' 'Ƒ', .rng 'ƒ' 'ƒ'], .lit ['o'], .cls false [.rng 'Ƒ' 'Ƒ', .rng 'ƒ' 'ƒ'], .lit ['o', ' '], .number, .lit [' ', 'm', 'e']], .seqs [.lit ['l', 'e', ' ', 'k'], .cls false [.rng 'Ɔ' 'Ɔ', .rng 'ɔ' 'ɔ'], .lit ['s', 'i'], .cls false [.rng 'Ɖ' 'Ɖ', .rng 'ɖ' 'ɖ'], .lit ['a', ' '], .number, .lit [' ', 'm', 'e']], .seqs [.lit ['l', 'e', ' ', 's', 'e', 'k', 'e', 'n', 'd', ' '], .number, .lit [' ', 'm', 'e']], .seqs [.lit ['l', 'e', ' '], .cls false [.rng 'Ŋ' 'Ŋ', .rng 'ŋ' 'ŋ'], .lit ['k', 'e', 'k', 'e', ' '], .number, .lit [' ', 'm', 'e']], .seqs [.lit ['l', 'e', ' '], .cls false [.rng 'Ɣ' 'Ɣ', .rng 'ɣ' 'ɣ'], .lit ['l', 'e', 't', 'i', ' '], .number, .lit [' ', 'm', 'e']], .seqs [.cls false [.rng 'Ƒ' 'Ƒ', .rng 'ƒ' 'ƒ'], .lit ['e', ' '], .number, .lit [' ', 's', 'i', ' ', 'v', 'a', ' ', 'y', 'i']], .seqs [.lit ['l', 'e', ' '], .cls false [.rng 'Ƒ' 'Ƒ', .rng 'ƒ' 'ƒ'], .lit ['e', ' '], .number, .lit [' ', 'm', 'e']]]), .grp 3 (.alts [.eos, .cls true [.letter, .mark, .digit], .lit ['_']])], 3),
  rxExact := some (.seqs [.bos, .grp 1 (.alts [.seqs [.lit ['a'], .cls false [.rng 'Ɖ' 'Ɖ', .rng 'ɖ' 'ɖ'], .lit ['a', 'b', 'a'], .cls false [.rng 'Ƒ' 'Ƒ', .rng 'ƒ' 'ƒ'], .lit ['o'], .cls false [.rng 'Ƒ' 'Ƒ', .rng 'ƒ' 'ƒ'], .lit ['o', ' '], .number, .lit [' ', 's', 'i', ' ', 'w', 'o', ' ', 'v', 'a', ' ', 'y', 'i']], .seqs [.lit ['a'], .cls false [.rng 'Ɖ' 'Ɖ', .rng 'ɖ' 'ɖ'], .lit ['a', 'b', 'a'], .cls false [.rng 'Ƒ' 'Ƒ', .rng 'ƒ' 'ƒ'], .lit ['o'], .cls false [.rng 'Ƒ' 'Ƒ', .rng 'ƒ' 'ƒ'], .lit ['o', ' '], .number, .lit [' ', 's', 'i', ' ', 'v', 'a', ' ', 'y', 'i']], .seqs [.lit ['g', 'a'], .cls false [.rng 'Ƒ' 'Ƒ', .rng 'ƒ' 'ƒ'], .lit ['o'], .cls false [.rng 'Ƒ' 'Ƒ', .rng 'ƒ' 'ƒ'], .lit ['o', ' '], .number, .lit [' ', 's', 'i', ' ', 'w', 'o', ' ', 'v', 'a', ' ', 'y', 'i']], .seqs [.lit ['k'], .cls false [.rng 'Ɔ' 'Ɔ', .rng 'ɔ' 'ɔ'], .lit ['s', 'i'], .cls false [.rng 'Ɖ' 'Ɖ', .rng 'ɖ' 'ɖ'], .lit ['a', ' '], .number, .lit [' ', 's', 'i', ' ', 'w', 'o', ' ', 'v', 'a', ' ', 'y', 'i']], .seqs [.lit ['l', 'e', ' ', 'a'], .cls false [.rng 'Ɖ' 'Ɖ', .rng 'ɖ' 'ɖ'], .lit ['a', 'b', 'a'], .cls false [.rng 'Ƒ' 'Ƒ', .rng 'ƒ' 'ƒ'], .lit ['o'], .cls false [.rng 'Ƒ' 'Ƒ', .rng 'ƒ' 'ƒ'], .lit ['o', ' '], .number, .lit [' ', 'w', 'o', ' ', 'm', 'e']], .seqs [.lit ['s', 'e', 'k', 'e', 'n', 'd', ' '], .number, .lit [' ', 's', 'i', ' ', 'w', 'o', ' ', 'v', 'a', ' ', 'y', 'i']], .seqs [.lit ['l', 'e', ' '], .cls false [.rng 'Ƒ' 'Ƒ', .rng 'ƒ' 'ƒ'], .lit ['e', ' '], .number, .lit [' ', 's', 'i', ' ', 'g', 'b'], .cls false [.rng 'Ɔ' 'Ɔ', .rng 'ɔ' 'ɔ'], .lit ['n', 'a', ' ', 'm', 'e']], .seqs [.lit ['l', 'e', ' '], .cls false [.rng 'Ƒ' 'Ƒ', .rng 'ƒ' 'ƒ'], .lit ['e', ' '], .number, .lit [' ', 's', 'i', ' ', 'v', 'a', ' ', 'y', 'i', ' ', 'm', 'e']], .seqs [.cls false [.rng 'Ŋ' 'Ŋ', .rng 'ŋ' 'ŋ'], .lit ['k', 'e', 'k', 'e', ' '], .number, .lit [' ', 's', 'i', ' ', 'w', 'o', ' ', 'v', 'a', ' ', 'y', 'i']], .seqs [.cls false [.rng 'Ɣ' 'Ɣ', .rng 'ɣ' 'ɣ'], .lit ['l', 'e', 't', 'i', ' '], .number, .lit [' ', 's', 'i', ' ', 'w', 'o', ' ', 'v', 'a', ' ', 'y', 'i']], .seqs [.lit ['g', 'a'], .cls false [.rng 'Ƒ' 'Ƒ', .rng 'ƒ' 'ƒ'], .lit ['o'], .cls false [.rng 'Ƒ' 'Ƒ', .rng 'ƒ' 'ƒ'], .lit ['o', ' '], .number, .lit [' ', 's', 'i', ' ', 'v', 'a', ' ', 'y', 'i']], .seqs [.lit ['k'], .cls false [.rng 'Ɔ' 'Ɔ', .rng 'ɔ' 'ɔ'], .lit ['s', 'i'], .cls false [.rng 'Ɖ' 'Ɖ', .rng 'ɖ' 'ɖ'], .lit ['a', ' '], .number, .lit [' ', 's', 'i', ' ', 'v', 'a', ' ', 'y', 'i']], .seqs [.lit ['l', 'e', ' ', 'a'], .cls false [.rng 'Ɖ' 'Ɖ', .rng 'ɖ' 'ɖ'], .lit ['a', 'b', 'a'], .cls false [.rng 'Ƒ' 'Ƒ', .rng 'ƒ' 'ƒ'], .lit ['o'], .cls false [.rng 'Ƒ' 'Ƒ', .rng 'ƒ' 'ƒ'], .lit ['o', ' '], .number, .lit [' ', 'm', 'e']], .seqs [.lit ['l', 'e', ' ', 'g', 'a'], .cls false [.rng 'Ƒ' 'Ƒ', .rng 'ƒ' 'ƒ'], .lit ['o'], .cls false [.rng 'Ƒ' 'Ƒ', .rng 'ƒ' 'ƒ'], .lit ['o', ' '], .number, .lit [' ', 'w', 'o', ' ', 'm', 'e']], .seqs [.lit ['l', 'e', ' ', 'k'], .cls false [.rng 'Ɔ' 'Ɔ', .rng 'ɔ' 'ɔ'], .lit ['s', 'i'], .cls false [.rng 'Ɖ' 'Ɖ', .rng 'ɖ' 'ɖ'], .lit ['a', ' '], .number, .lit [' ', 'w', 'o', ' ', 'm', 'e']], .seqs [.lit ['l', 'e', ' ', 's', 'e', 'k', 'e', 'n', 'd', ' '], .number, .lit [' ', 'w', 'o', ' ', 'm', 'e']], .seqs [.lit ['s', 'e', 'k', 'e', 'n', 'd', ' '], .number, .lit [' ', 's', 'i', ' ', 'v', 'a', ' ', 'y', 'i']], .seqs [.lit ['l', 'e', ' '], .cls false [.rng 'Ŋ' 'Ŋ', .rng 'ŋ' 'ŋ'], .lit ['k', 'e', 'k', 'e', ' '], .number, .lit [' ', 'w', 'o', ' ', 'm', 'e']], .seqs [.lit ['l', 'e', ' '], .cls false [.rng 'Ɣ' 'Ɣ', .rng 'ɣ' 'ɣ'], .lit ['l', 'e', 't', 'i', ' '], .number, .lit [' ', 'w', 'o', ' ', 'm', 'e']], .seqs [.cls false [.rng 'Ŋ' 'Ŋ', .rng 'ŋ' 'ŋ'], .lit ['k', 'e', 'k', 'e', ' '], .number, .lit [' ', 's', 'i', ' ', 'v', 'a', ' ', 'y', 'i']], .seqs [.cls false [.rng 'Ƒ' 'Ƒ', .rng 'ƒ' 'ƒ'], .lit ['e', ' '], .number, .lit [' ', 's', 'i', ' ', 'v', 'a', ' ', 'y', 'i', ' ', 'm', 'e']], .seqs [.cls false [.rng 'Ƒ' 'Ƒ', .rng 'ƒ' 'ƒ'], .lit ['e', ' '], .number, .lit [' ', 's', 'i', ' ', 'w', 'o', ' ', 'v', 'a', ' ', 'y', 'i']], .seqs [.cls false [.rng 'Ɣ' 'Ɣ', .rng 'ɣ' 'ɣ'], .lit ['l', 'e', 't', 'i', ' '], .number, .lit [' ', 's', 'i', ' ', 'v', 'a', ' ', 'y', 'i']], .seqs [.lit ['l', 'e', ' ', 'g', 'a'], .cls false [.rng 'Ƒ' 'Ƒ', .rng 'ƒ' 'ƒ'], .lit ['o'], .cls false [.rng 'Ƒ' 'Ƒ', .rng 'ƒ' 'ƒ'], .lit ['o', ' '], .number, .lit [' ', 'm', 'e']], .seqs [.lit ['l', 'e', ' ', 'k'], .cls false [.rng 'Ɔ' 'Ɔ', .rng 'ɔ' 'ɔ'], .lit ['s', 'i'], .cls false [.rng 'Ɖ' 'Ɖ', .rng 'ɖ' 'ɖ'], .lit ['a', ' '], .number, .lit [' ', 'm', 'e']], .seqs [.lit ['l', 'e', ' ', 's', 'e', 'k', 'e', 'n', 'd', ' '], .number, .lit [' ', 'm', 'e']], .seqs [.lit ['l', 'e', ' '], .cls false [.rng 'Ŋ' 'Ŋ', .rng 'ŋ' 'ŋ'], .lit ['k', 'e', 'k', 'e', ' '], .number, .lit [' ', 'm', 'e']], .seqs [.lit ['l', 'e', ' '], .cls false [.rng 'Ɣ' 'Ɣ', .rng 'ɣ' 'ɣ'], .lit ['l', 'e', 't', 'i', ' '], .number, .lit [' ', 'm', 'e']], .seqs [.cls false [.rng 'Ƒ' 'Ƒ', .rng 'ƒ' 'ƒ'], .lit ['e', ' '], .number, .lit [' ', 's', 'i', ' ', 'v', 'a', ' ', 'y', 'i']], .seqs [.lit ['l', 'e', ' '], .cls false [.rng 'Ƒ' 'Ƒ', .rng 'ƒ' 'ƒ'], .lit ['e', ' '], .number, .lit [' ', 'm', 'e']]]), .eos]),
  knownWords :=
   [['k', 'ɔ', 's', 'i', 'ɖ', 'a', ' ', 's', 'i', ' ', 'g', 'b', 'ɔ', ' ', 'n', 'a'], ['k', 'ɔ', 's', 'i', 'ɖ', 'a', ' ', 's', 'i', ' ', 'v', 'a', ' ', 'y', 'i'], ['ɣ', 'l', 'e', 't', 'i', ' ', 's', 'i', ' ', 'g', 'b', 'ɔ', ' ', 'n', 'a'], ['ɣ', 'l', 'e', 't', 'i', ' ', 's', 'i', ' ', 'v', 'a', ' ', 'y', 'i'], ['e', 't', 's', 'ɔ', ' ', 's', 'i', ' ', 'g', 'b', 'ɔ', 'n', 'a'], ['e', 't', 's', 'ɔ', ' ', 's', 'i', ' ', 'v', 'a', ' ', 'y', 'i'], ['ƒ', 'e', ' ', 's', 'i', ' ', 'g', 'b', 'ɔ', ' ', 'n', 'a'], ['a', 'd', 'e', 'ɛ', 'm', 'e', 'k', 'p', 'ɔ', 'x', 'e'], ['k', 'ɔ', 's', 'i', 'ɖ', 'a', ' ', 'ɖ', 'e', 'k', 'a'], ['t', 'h', 'i', 's', ' ', 'm', 'i', 'n', 'u', 't', 'e'], ['ƒ', 'e', ' ', 's', 'i', ' ', 'v', 'a', ' ', 'y', 'i'], ['d', 'e', 'a', 's', 'i', 'a', 'm', 'i', 'm', 'e'], ['k', 'ɔ', 's', 'i', 'ɖ', 'a', ' ', 's', 'i', 'a'], ['a', 'ɖ', 'a', 'b', 'a', 'ƒ', 'o', 'ƒ', 'o'], ['t', 'h', 'i', 's', ' ', 'h', 'o', 'u', 'r'], ['ɣ', 'l', 'e', 't', 'i', ' ', 's', 'i', 'a'], ['a', 'n', 'y', 'ɔ', 'n', 'y', 'ɔ'], ['m', 'e', 'm', 'l', 'e', 'ɖ', 'a'], ['s', 'i', 'a', 'm', 'l', 'ɔ', 'm'], ['a', 'f', 'ɔ', 'f', 'i', 'e'], ['d', 'z', 'o', 'd', 'z', 'e'], ['g', 'a', 'ƒ', 'o', 'ƒ', 'o'], ['k', 'ɔ', 's', 'i', 'ɖ', 'a'], ['s', 'e', 'k', 'e', 'n', 'd'], ['t', 'e', 'd', 'o', 'x', 'e'], ['y', 'a', 'w', 'o', 'ɖ', 'a'], ['ƒ', 'e', ' ', 's', 'i', 'a'], ['b', 'l', 'a', 'ɖ', 'a'], ['d', 'z', 'o', 'm', 'e'], ['d', 'z', 'o', 'v', 'e'], ['d', 'z', 'o', 'ɖ', 'a'], ['ŋ', 'k', 'e', 'k', 'e'], ['ɣ', 'e', 't', 'r', 'ɔ'], ['ɣ', 'l', 'e', 't', 'i'], ['d', 'a', 'm', 'a'], ['e', 'g', 'b', 'e'], ['f', 'i', 'f', 'i'], ['f', 'i', 'ɖ', 'a'], ['k', 'e', 'l', 'e'], ['k', 'u', 'ɖ', 'a'], ['m', 'a', 's', 'a'], ['a', 'd', 'e'], ['a', 'f', 'ɔ'], ['a', 'n', 'y'], ['b', 'l', 'a'], ['d', 'a', 'm'], ['d', 'e', 'a'], ['d', 'z', 'd'], ['d', 'z', 'm'], ['d', 'z', 'o'], ['d', 'z', 'v'], ['f', 'i', 'ɖ'], ['g', 'm', 't'], ['k', 'e', 'l'], ['k', 'u', 'ɖ'], ['k', 'ɔ', 's'], ['m', 'a', 's'], ['m', 'e', 'm'], ['s', 'i', 'a'], ['t', 'e', 'd'], ['u', 't', 'c'], ['y', 'a', 'w'], ['ŋ', 'd', 'i'], ['a', 'm'], ['p', 'm'], ['ƒ', 'e'], [' '], ['\''], ['+'], [','], ['-'], ['.'], ['/'], [':'], [';'], ['@'], ['['], [']'], ['z'], ['|']] }

/-- internal/data/ee.go: `ee_TG_Locale`. -/
def ee_TGLang : LangData := ee_TGDict

/-- internal/data/el.go: `el_Locale`. -/
def elLang : LangData := { elDict with
  relativeRegexes :=
   [(.seqs [.cls false [.rng 'Π' 'Π', .rng 'π' 'π', .rng 'ϖ' 'ϖ'], .cls false [.rng 'Ρ' 'Ρ', .rng 'ρ' 'ρ', .rng 'ϱ' 'ϱ'], .cls false [.rng (Char.ofNat 0x345) (Char.ofNat 0x345), .rng 'Ι' 'Ι', .rng 'ι' 'ι', .rng 'ι' 'ι'], .cls false [.rng 'Ν' 'Ν', .rng 'ν' 'ν'], .lit [' '], .cls false [.rng 'Α' 'Α', .rng 'α' 'α'], .cls false [.rng 'Π' 'Π', .rng 'π' 'π', .rng 'ϖ' 'ϖ'], .cls false [.rng 'Ο' 'Ο', .rng 'ο' 'ο'], .lit [' '], .grp 1 (.number), .lit [' '], .cls false [.rng 'Δ' 'Δ', .rng 'δ' 'δ'], .cls false [.rng 'Ε' 'Ε', .rng 'ε' 'ε', .rng 'ϵ' 'ϵ'], .cls false [.rng 'Υ' 'Υ', .rng 'υ' 'υ'], .cls false [.rng 'Τ' 'Τ', .rng 'τ' 'τ'], .cls false [.rng 'Ε' 'Ε', .rng 'ε' 'ε', .rng 'ϵ' 'ϵ'], .cls false [.rng 'Ρ' 'Ρ', .rng 'ρ' 'ρ', .rng 'ϱ' 'ϱ'], .cls false [.rng 'Ο' 'Ο', .rng 'ο' 'ο'], .cls false [.rng 'Λ' 'Λ', .rng 'λ' 'λ'], .cls false [.rng 'Ε' 'Ε', .rng 'ε' 'ε', .rng 'ϵ' 'ϵ'], .cls false [.rng 'Π' 'Π', .rng 'π' 'π', .rng 'ϖ' 'ϖ'], .cls false [.rng 'Τ' 'Τ', .rng 'τ' 'τ'], .cls false [.rng 'Α' 'Α', .rng 'α' 'α']], [.ref 1, .lit [' ', 's', 'e', 'c', 'o', 'n', 'd', ' ', 'a', 'g', 'o']]),
    (.seqs [.cls false [.rng 'Π' 'Π', .rng 'π' 'π', .rng 'ϖ' 'ϖ'], .cls false [.rng 'Ρ' 'Ρ', .rng 'ρ' 'ρ', .rng 'ϱ' 'ϱ'], .cls false [.rng (Char.ofNat 0x345) (Char.ofNat 0x345), .rng 'Ι' 'Ι', .rng 'ι' 'ι', .rng 'ι' 'ι'], .cls false [.rng 'Ν' 'Ν', .rng 'ν' 'ν'], .lit [' '], .cls false [.rng 'Α' 'Α', .rng 'α' 'α'], .cls false [.rng 'Π' 'Π', .rng 'π' 'π', .rng 'ϖ' 'ϖ'], .cls false [.rng 'Ο' 'Ο', .rng 'ο' 'ο'], .lit [' '], .grp 1 (.number), .lit [' '], .cls false [.rng 'Δ' 'Δ', .rng 'δ' 'δ'], .cls false [.rng 'Ε' 'Ε', .rng 'ε' 'ε', .rng 'ϵ' 'ϵ'], .cls false [.rng 'Υ' 'Υ', .rng 'υ' 'υ'], .cls false [.rng 'Τ' 'Τ', .rng 'τ' 'τ'], .cls false [.rng 'Ε' 'Ε', .rng 'ε' 'ε', .rng 'ϵ' 'ϵ'], .cls false [.rng 'Ρ' 'Ρ', .rng 'ρ' 'ρ', .rng 'ϱ' 'ϱ'], .cls false [.rng 'Ο' 'Ο', .rng 'ο' 'ο'], .cls false [.rng 'Λ' 'Λ', .rng 'λ' 'λ'], .cls false [.rng 'Ε' 'Ε', .rng 'ε' 'ε', .rng 'ϵ' 'ϵ'], .cls false [.rng 'Π' 'Π', .rng 'π' 'π', .rng 'ϖ' 'ϖ'], .cls false [.rng 'Τ' 'Τ', .rng 'τ' 'τ'], .cls false [.rng 'Ο' 'Ο', .rng 'ο' 'ο']], [.ref 1, .lit [' ', 's', 'e', 'c', 'o', 'n', 'd', ' ', 'a', 'g', 'o']]),
    (.seqs [.cls false [.rng 'Π' 'Π', .rng 'π' 'π', .rng 'ϖ' 'ϖ'], .cls false [.rng 'Ρ' 'Ρ', .rng 'ρ' 'ρ', .rng 'ϱ' 'ϱ'], .cls false [.rng (Char.ofNat 0x345) (Char.ofNat 0x345), .rng 'Ι' 'Ι', .rng 'ι' 'ι', .rng 'ι' 'ι'], .cls false [.rng 'Ν' 'Ν', .rng 'ν' 'ν'], .lit [' '], .cls false [.rng 'Α' 'Α', .rng 'α' 'α'], .cls false [.rng 'Π' 'Π', .rng 'π' 'π', .rng 'ϖ' 'ϖ'], .cls false [.rng 'Ο' 'Ο', .rng 'ο' 'ο'], .lit [' '], .grp 1 (.number), .lit [' '], .cls false [.rng 'Ε' 'Ε', .rng 'ε' 'ε', .rng 'ϵ' 'ϵ'], .cls false [.rng 'Β' 'Β', .rng 'β' 'β', .rng 'ϐ' 'ϐ'], .cls false [.rng 'Δ' 'Δ', .rng 'δ' 'δ'], .cls false [.rng 'Ο' 'Ο', .rng 'ο' 'ο'], .cls false [.rng 'µ' 'µ', .rng 'Μ' 'Μ', .rng 'μ' 'μ'], .cls false [.rng 'Α' 'Α', .rng 'α' 'α'], .cls false [.rng 'Δ' 'Δ', .rng 'δ' 'δ'], .cls false [.rng 'Ε' 'Ε', .rng 'ε' 'ε', .rng 'ϵ' 'ϵ'], .cls false [.rng 'Σ' 'Σ', .rng 'ς' 'ς', .rng 'σ' 'σ']], [.ref 1, .lit [' ', 'w', 'e', 'e', 'k', ' ', 'a', 'g', 'o']]),
    (.seqs [.cls false [.rng 'Π' 'Π', .rng 'π' 'π', .rng 'ϖ' 'ϖ'], .cls false [.rng 'Ρ' 'Ρ', .rng 'ρ' 'ρ', .rng 'ϱ' 'ϱ'], .cls false [.rng (Char.ofNat 0x345) (Char.ofNat 0x345), .rng 'Ι' 'Ι', .rng 'ι' 'ι', .rng 'ι' 'ι'], .cls false [.rng 'Ν' 'Ν', .rng 'ν' 'ν'], .lit [' '], .cls false [.rng 'Α' 'Α', .rng 'α' 'α'], .cls false [.rng 'Π' 'Π', .rng 'π' 'π', .rng 'ϖ' 'ϖ'], .cls false [.rng 'Ο' 'Ο', .rng 'ο' 'ο'], .lit [' '], .grp 1 (.number), .lit [' '], .cls false [.rng 'Ε' 'Ε', .rng 'ε' 'ε', .rng 'ϵ' 'ϵ'], .cls false [.rng 'Β' 'Β', .rng 'β' 'β', .rng 'ϐ' 'ϐ'], .cls false [.rng 'Δ' 'Δ', .rng 'δ' 'δ'], .cls false [.rng 'Ο' 'Ο', .rng 'ο' 'ο'], .cls false [.rng 'µ' 'µ', .rng 'Μ' 'Μ', .rng 'μ' 'μ'], .cls false [.rng 'Α' 'Α', .rng 'α' 'α'], .cls false [.rng 'Δ' 'Δ', .rng 'δ' 'δ'], .cls false [.rng 'Α' 'Α', .rng 'α' 'α']], [.ref 1, .lit [' ', 'w', 'e', 'e', 'k', ' ', 'a', 'g', 'o']]),
    (.seqs [.cls false [.rng 'Π' 'Π', .rng 'π' 'π', .rng 'ϖ' 'ϖ'], .cls false [.rng 'Ρ' 'Ρ', .rng 'ρ' 'ρ', .rng 'ϱ' 'ϱ'], .cls false [.rng (Char.ofNat 0x345) (Char.ofNat 0x345), .rng 'Ι' 'Ι', .rng 'ι' 'ι', .rng 'ι' 'ι'], .cls false [.rng 'Ν' 'Ν', .rng 'ν' 'ν'], .lit [' '], .cls false [.rng 'Α' 'Α', .rng 'α' 'α'], .cls false [.rng 'Π' 'Π', .rng 'π' 'π', .rng 'ϖ' 'ϖ'], .cls false [.rng 'Ο' 'Ο', .rng 'ο' 'ο'], .lit [' '], .grp 1 (.number), .lit [' '], .cls false [.rng 'Η' 'Η', .rng 'η' 'η'], .cls false [.rng 'µ' 'µ', .rng 'Μ' 'Μ', .rng 'μ' 'μ'], .cls false [.rng 'Ε' 'Ε', .rng 'ε' 'ε', .rng 'ϵ' 'ϵ'], .cls false [.rng 'Ρ' 'Ρ', .rng 'ρ' 'ρ', .rng 'ϱ' 'ϱ'], .cls false [.rng 'Ε' 'Ε', .rng 'ε' 'ε', .rng 'ϵ' 'ϵ'], .cls false [.rng 'Σ' 'Σ', .rng 'ς' 'ς', .rng 'σ' 'σ']], [.ref 1, .lit [' ', 'd', 'a', 'y', ' ', 'a', 'g', 'o']]),
    (.seqs [.cls false [.rng 'Σ' 'Σ', .rng 'ς' 'ς', .rng 'σ' 'σ'], .cls false [.rng 'Ε' 'Ε', .rng 'ε' 'ε', .rng 'ϵ' 'ϵ'], .lit [' '], .grp 1 (.number), .lit [' '], .cls false [.rng 'Δ' 'Δ', .rng 'δ' 'δ'], .cls false [.rng 'Ε' 'Ε', .rng 'ε' 'ε', .rng 'ϵ' 'ϵ'], .cls false [.rng 'Υ' 'Υ', .rng 'υ' 'υ'], .cls false [.rng 'Τ' 'Τ', .rng 'τ' 'τ'], .cls false [.rng 'Ε' 'Ε', .rng 'ε' 'ε', .rng 'ϵ' 'ϵ'], .cls false [.rng 'Ρ' 'Ρ', .rng 'ρ' 'ρ', .rng 'ϱ' 'ϱ'], .cls false [.rng 'Ο' 'Ο', .rng 'ο' 'ο'], .cls false [.rng 'Λ' 'Λ', .rng 'λ' 'λ'], .cls false [.rng 'Ε' 'Ε', .rng 'ε' 'ε', .rng 'ϵ' 'ϵ'], .cls false [.rng 'Π' 'Π', .rng 'π' 'π', .rng 'ϖ' 'ϖ'], .cls false [.rng 'Τ' 'Τ', .rng 'τ' 'τ'], .cls false [.rng 'Α' 'Α', .rng 'α' 'α']], [.lit ['i', 'n', ' '], .ref 1, .lit [' ', 's', 'e', 'c', 'o', 'n', 'd']]),
    (.seqs [.cls false [.rng 'Σ' 'Σ', .rng 'ς' 'ς', .rng 'σ' 'σ'], .cls false [.rng 'Ε' 'Ε', .rng 'ε' 'ε', .rng 'ϵ' 'ϵ'], .lit [' '], .grp 1 (.number), .lit [' '], .cls false [.rng 'Δ' 'Δ', .rng 'δ' 'δ'], .cls false [.rng 'Ε' 'Ε', .rng 'ε' 'ε', .rng 'ϵ' 'ϵ'], .cls false [.rng 'Υ' 'Υ', .rng 'υ' 'υ'], .cls false [.rng 'Τ' 'Τ', .rng 'τ' 'τ'], .cls false [.rng 'Ε' 'Ε', .rng 'ε' 'ε', .rng 'ϵ' 'ϵ'], .cls false [.rng 'Ρ' 'Ρ', .rng 'ρ' 'ρ', .rng 'ϱ' 'ϱ'], .cls false [.rng 'Ο' 'Ο', .rng 'ο' 'ο'], .cls false [.rng 'Λ' 'Λ', .rng 'λ' 'λ'], .cls false [.rng 'Ε' 'Ε', .rng 'ε' 'ε', .rng 'ϵ' 'ϵ'], .cls false [.rng 'Π' 'Π', .rng 'π' 'π', .rng 'ϖ' 'ϖ'], .cls false [.rng 'Τ' 'Τ', .rng 'τ' 'τ'], .cls false [.rng 'Ο' 'Ο', .rng 'ο' 'ο']], [.lit ['i', 'n', ' '], .ref 1, .lit [' ', 's', 'e', 'c', 'o', 'n', 'd']]),
    (.seqs [.cls false [.rng 'Π' 'Π', .rng 'π' 'π', .rng 'ϖ' 'ϖ'], .cls false [.rng 'Ρ' 'Ρ', .rng 'ρ' 'ρ', .rng 'ϱ' 'ϱ'], .cls false [.rng (Char.ofNat 0x345) (Char.ofNat 0x345), .rng 'Ι' 'Ι', .rng 'ι' 'ι', .rng 'ι' 'ι'], .cls false [.rng 'Ν' 'Ν', .rng 'ν' 'ν'], .lit [' '], .cls false [.rng 'Α' 'Α', .rng 'α' 'α'], .cls false [.rng 'Π' 'Π', .rng 'π' 'π', .rng 'ϖ' 'ϖ'], .cls false [.rng 'Ο' 'Ο', .rng 'ο' 'ο'], .lit [' '], .grp 1 (.number), .lit [' '], .cls false [.rng 'Η' 'Η', .rng 'η' 'η'], .cls false [.rng 'µ' 'µ', .rng 'Μ' 'Μ', .rng 'μ' 'μ'], .cls false [.rng 'Ε' 'Ε', .rng 'ε' 'ε', .rng 'ϵ' 'ϵ'], .cls false [.rng 'Ρ' 'Ρ', .rng 'ρ' 'ρ', .rng 'ϱ' 'ϱ'], .cls false [.rng 'Α' 'Α', .rng 'α' 'α']], [.ref 1, .lit [' ', 'd', 'a', 'y', ' ', 'a', 'g', 'o']]),
    (.seqs [.cls false [.rng 'Π' 'Π', .rng 'π' 'π', .rng 'ϖ' 'ϖ'], .cls false [.rng 'Ρ' 'Ρ', .rng 'ρ' 'ρ', .rng 'ϱ' 'ϱ'], .cls false [.rng (Char.ofNat 0x345) (Char.ofNat 0x345), .rng 'Ι' 'Ι', .rng 'ι' 'ι', .rng 'ι' 'ι'], .cls false [.rng 'Ν' 'Ν', .rng 'ν' 'ν'], .lit [' '], .cls false [.rng 'Α' 'Α', .rng 'α' 'α'], .cls false [.rng 'Π' 'Π', .rng 'π' 'π', .rng 'ϖ' 'ϖ'], .cls false [.rng 'Ο' 'Ο', .rng 'ο' 'ο'], .lit [' '], .grp 1 (.number), .lit [' '], .cls false [.rng 'Λ' 'Λ', .rng 'λ' 'λ'], .cls false [.rng 'Ε' 'Ε', .rng 'ε' 'ε', .rng 'ϵ' 'ϵ'], .cls false [.rng 'Π' 'Π', .rng 'π' 'π', .rng 'ϖ' 'ϖ'], .cls false [.rng 'Τ' 'Τ', .rng 'τ' 'τ'], .cls false [.rng 'Α' 'Α', .rng 'α' 'α']], [.ref 1, .lit [' ', 'm', 'i', 'n', 'u', 't', 'e', ' ', 'a', 'g', 'o']]),
    (.seqs [.cls false [.rng 'Π' 'Π', .rng 'π' 'π', .rng 'ϖ' 'ϖ'], .cls false [.rng 'Ρ' 'Ρ', .rng 'ρ' 'ρ', .rng 'ϱ' 'ϱ'], .cls false [.rng (Char.ofNat 0x345) (Char.ofNat 0x345), .rng 'Ι' 'Ι', .rng 'ι' 'ι', .rng 'ι' 'ι'], .cls false [.rng 'Ν' 'Ν', .rng 'ν' 'ν'], .lit [' '], .cls false [.rng 'Α' 'Α', .rng 'α' 'α'], .cls false [.rng 'Π' 'Π', .rng 'π' 'π', .rng 'ϖ' 'ϖ'], .cls false [.rng 'Ο' 'Ο', .rng 'ο' 'ο'], .lit [' '], .grp 1 (.number), .lit [' '], .cls false [.rng 'Λ' 'Λ', .rng 'λ' 'λ'], .cls false [.rng 'Ε' 'Ε', .rng 'ε' 'ε', .rng 'ϵ' 'ϵ'], .cls false [.rng 'Π' 'Π', .rng 'π' 'π', .rng 'ϖ' 'ϖ'], .cls false [.rng 'Τ' 'Τ', .rng 'τ' 'τ'], .cls false [.rng 'Ο' 'Ο', .rng 'ο' 'ο']], [.ref 1, .lit [' ', 'm', 'i', 'n', 'u', 't', 'e', ' ', 'a', 'g', 'o']]),
    (.seqs [.cls false [.rng 'Π' 'Π', .rng 'π' 'π', .rng 'ϖ' 'ϖ'], .cls false [.rng 'Ρ' 'Ρ', .rng 'ρ' 'ρ', .rng 'ϱ' 'ϱ'], .cls false [.rng (Char.ofNat 0x345) (Char.ofNat 0x345), .rng 'Ι' 'Ι', .rng 'ι' 'ι', .rng 'ι' 'ι'], .cls false [.rng 'Ν' 'Ν', .rng 'ν' 'ν'], .lit [' '], .cls false [.rng 'Α' 'Α', .rng 'α' 'α'], .cls false [.rng 'Π' 'Π', .rng 'π' 'π', .rng 'ϖ' 'ϖ'], .cls false [.rng 'Ο' 'Ο', .rng 'ο' 'ο'], .lit [' '], .grp 1 (.number), .lit [' '], .cls false [.rng 'µ' 'µ', .rng 'Μ' 'Μ', .rng 'μ' 'μ'], .cls false [.rng 'Η' 'Η', .rng 'η' 'η'], .cls false [.rng 'Ν' 'Ν', .rng 'ν' 'ν'], .cls false [.rng 'Ε' 'Ε', .rng 'ε' 'ε', .rng 'ϵ' 'ϵ'], .cls false [.rng 'Σ' 'Σ', .rng 'ς' 'ς', .rng 'σ' 'σ']], [.ref 1, .lit [' ', 'm', 'o', 'n', 't', 'h', ' ', 'a', 'g', 'o']]),
    (.seqs [.cls false [.rng 'Π' 'Π', .rng 'π' 'π', .rng 'ϖ' 'ϖ'], .cls false [.rng 'Ρ' 'Ρ', .rng 'ρ' 'ρ', .rng 'ϱ' 'ϱ'], .cls false [.rng (Char.ofNat 0x345) (Char.ofNat 0x345), .rng 'Ι' 'Ι', .rng 'ι' 'ι', .rng 'ι' 'ι'], .cls false [.rng 'Ν' 'Ν', .rng 'ν' 'ν'], .lit [' '], .cls false [.rng 'Α' 'Α', .rng 'α' 'α'], .cls false [.rng 'Π' 'Π', .rng 'π' 'π', .rng 'ϖ' 'ϖ'], .cls false [.rng 'Ο' 'Ο', .rng 'ο' 'ο'], .lit [' '], .grp 1 (.number), .lit [' '], .cls false [.rng 'Δ' 'Δ', .rng 'δ' 'δ'], .cls false [.rng 'Ε' 'Ε', .rng 'ε' 'ε', .rng 'ϵ' 'ϵ'], .cls false [.rng 'Υ' 'Υ', .rng 'υ' 'υ'], .cls false [.rng 'Τ' 'Τ', .rng 'τ' 'τ']], [.ref 1, .lit [' ', 's', 'e', 'c', 'o', 'n', 'd', ' ', 'a', 'g', 'o']]),
    (.seqs [.cls false [.rng 'Π' 'Π', .rng 'π' 'π', .rng 'ϖ' 'ϖ'], .cls false [.rng 'Ρ' 'Ρ', .rng 'ρ' 'ρ', .rng 'ϱ' 'ϱ'], .cls false [.rng (Char.ofNat 0x345) (Char.ofNat 0x345), .rng 'Ι' 'Ι', .rng 'ι' 'ι', .rng 'ι' 'ι'], .cls false [.rng 'Ν' 'Ν', .rng 'ν' 'ν'], .lit [' '], .cls false [.rng 'Α' 'Α', .rng 'α' 'α'], .cls false [.rng 'Π' 'Π', .rng 'π' 'π', .rng 'ϖ' 'ϖ'], .cls false [.rng 'Ο' 'Ο', .rng 'ο' 'ο'], .lit [' '], .grp 1 (.number), .lit [' '], .cls false [.rng 'Ε' 'Ε', .rng 'ε' 'ε', .rng 'ϵ' 'ϵ'], .cls false [.rng 'Τ' 'Τ', .rng 'τ' 'τ'], .cls false [.rng 'Ο' 'Ο', .rng 'ο' 'ο'], .cls false [.rng 'Σ' 'Σ', .rng 'ς' 'ς', .rng 'σ' 'σ']], [.ref 1, .lit [' ', 'y', 'e', 'a', 'r', ' ', 'a', 'g', 'o']]),
    (.seqs [.cls false [.rng 'Π' 'Π', .rng 'π' 'π', .rng 'ϖ' 'ϖ'], .cls false [.rng 'Ρ' 'Ρ', .rng 'ρ' 'ρ', .rng 'ϱ' 'ϱ'], .cls false [.rng (Char.ofNat 0x345) (Char.ofNat 0x345), .rng 'Ι' 'Ι', .rng 'ι' 'ι', .rng 'ι' 'ι'], .cls false [.rng 'Ν' 'Ν', .rng 'ν' 'ν'], .lit [' '], .cls false [.rng 'Α' 'Α', .rng 'α' 'α'], .cls false [.rng 'Π' 'Π', .rng 'π' 'π', .rng 'ϖ' 'ϖ'], .cls false [.rng 'Ο' 'Ο', .rng 'ο' 'ο'], .lit [' '], .grp 1 (.number), .lit [' '], .cls false [.rng 'µ' 'µ', .rng 'Μ' 'Μ', .rng 'μ' 'μ'], .cls false [.rng 'Η' 'Η', .rng 'η' 'η'], .cls false [.rng 'Ν' 'Ν', .rng 'ν' 'ν'], .cls false [.rng 'Α' 'Α', .rng 'α' 'α']], [.ref 1, .lit [' ', 'm', 'o', 'n', 't', 'h', ' ', 'a', 'g', 'o']]),
    (.seqs [.cls false [.rng 'Π' 'Π', .rng 'π' 'π', .rng 'ϖ' 'ϖ'], .cls false [.rng 'Ρ' 'Ρ', .rng 'ρ' 'ρ', .rng 'ϱ' 'ϱ'], .cls false [.rng (Char.ofNat 0x345) (Char.ofNat 0x345), .rng 'Ι' 'Ι', .rng 'ι' 'ι', .rng 'ι' 'ι'], .cls false [.rng 'Ν' 'Ν', .rng 'ν' 'ν'], .lit [' '], .cls false [.rng 'Α' 'Α', .rng 'α' 'α'], .cls false [.rng 'Π' 'Π', .rng 'π' 'π', .rng 'ϖ' 'ϖ'], .cls false [.rng 'Ο' 'Ο', .rng 'ο' 'ο'], .lit [' '], .grp 1 (.number), .lit [' '], .cls false [.rng 'Ω' 'Ω', .rng 'ω' 'ω', .rng 'Ω' 'Ω'], .cls false [.rng 'Ρ' 'Ρ', .rng 'ρ' 'ρ', .rng 'ϱ' 'ϱ'], .cls false [.rng 'Ε' 'Ε', .rng 'ε' 'ε', .rng 'ϵ' 'ϵ'], .cls false [.rng 'Σ' 'Σ', .rng 'ς' 'ς', .rng 'σ' 'σ']], [.ref 1, .lit [' ', 'h', 'o', 'u', 'r', ' ', 'a', 'g', 'o']]),
    (.seqs [.cls false [.rng 'Π' 'Π', .rng 'π' 'π', .rng 'ϖ' 'ϖ'], .cls false [.rng 'Ρ' 'Ρ', .rng 'ρ' 'ρ', .rng 'ϱ' 'ϱ'], .cls false [.rng (Char.ofNat 0x345) (Char.ofNat 0x345), .rng 'Ι' 'Ι', .rng 'ι' 'ι', .rng 'ι' 'ι'], .cls false [.rng 'Ν' 'Ν', .rng 'ν' 'ν'], .lit [' '], .cls false [.rng 'Α' 'Α', .rng 'α' 'α'], .cls false [.rng 'Π' 'Π', .rng 'π' 'π', .rng 'ϖ' 'ϖ'], .cls false [.rng 'Ο' 'Ο', .rng 'ο' 'ο'], .lit [' '], .grp 1 (.number), .lit [' '], .cls false [.rng 'Ε' 'Ε', .rng 'ε' 'ε', .rng 'ϵ' 'ϵ'], .cls false [.rng 'Β' 'Β', .rng 'β' 'β', .rng 'ϐ' 'ϐ'], .cls false [.rng 'Δ' 'Δ', .rng 'δ' 'δ']], [.ref 1, .lit [' ', 'w', 'e', 'e', 'k', ' ', 'a', 'g', 'o']]),
    (.seqs [.cls false [.rng 'Π' 'Π', .rng 'π' 'π', .rng 'ϖ' 'ϖ'], .cls false [.rng 'Ρ' 'Ρ', .rng 'ρ' 'ρ', .rng 'ϱ' 'ϱ'], .cls false [.rng (Char.ofNat 0x345) (Char.ofNat 0x345), .rng 'Ι' 'Ι', .rng 'ι' 'ι', .rng 'ι' 'ι'], .cls false [.rng 'Ν' 'Ν', .rng 'ν' 'ν'], .lit [' '], .cls false [.rng 'Α' 'Α', .rng 'α' 'α'], .cls false [.rng 'Π' 'Π', .rng 'π' 'π', .rng 'ϖ' 'ϖ'], .cls false [.rng 'Ο' 'Ο', .rng 'ο' 'ο'], .lit [' '], .grp 1 (.number), .lit [' '], .cls false [.rng 'Ε' 'Ε', .rng 'ε' 'ε', .rng 'ϵ' 'ϵ'], .cls false [.rng 'Τ' 'Τ', .rng 'τ' 'τ'], .cls false [.rng 'Η' 'Η', .rng 'η' 'η']], [.ref 1, .lit [' ', 'y', 'e', 'a', 'r', ' ', 'a', 'g', 'o']]),
    (.seqs [.cls false [.rng 'Π' 'Π', .rng 'π' 'π', .rng 'ϖ' 'ϖ'], .cls false [.rng 'Ρ' 'Ρ', .rng 'ρ' 'ρ', .rng 'ϱ' 'ϱ'], .cls false [.rng (Char.ofNat 0x345) (Char.ofNat 0x345), .rng 'Ι' 'Ι', .rng 'ι' 'ι', .rng 'ι' 'ι'], .cls false [.rng 'Ν' 'Ν', .rng 'ν' 'ν'], .lit [' '], .cls false [.rng 'Α' 'Α', .rng 'α' 'α'], .cls false [.rng 'Π' 'Π', .rng 'π' 'π', .rng 'ϖ' 'ϖ'], .cls false [.rng 'Ο' 'Ο', .rng 'ο' 'ο'], .lit [' '], .grp 1 (.number), .lit [' '], .cls false [.rng 'Λ' 'Λ', .rng 'λ' 'λ'], .cls false [.rng 'Ε' 'Ε', .rng 'ε' 'ε', .rng 'ϵ' 'ϵ'], .cls false [.rng 'Π' 'Π', .rng 'π' 'π', .rng 'ϖ' 'ϖ']], [.ref 1, .lit [' ', 'm', 'i', 'n', 'u', 't', 'e', ' ', 'a', 'g', 'o']]),
    (.seqs [.cls false [.rng 'Π' 'Π', .rng 'π' 'π', .rng 'ϖ' 'ϖ'], .cls false [.rng 'Ρ' 'Ρ', .rng 'ρ' 'ρ', .rng 'ϱ' 'ϱ'], .cls false [.rng (Char.ofNat 0x345) (Char.ofNat 0x345), .rng 'Ι' 'Ι', .rng 'ι' 'ι', .rng 'ι' 'ι'], .cls false [.rng 'Ν' 'Ν', .rng 'ν' 'ν'], .lit [' '], .cls false [.rng 'Α' 'Α', .rng 'α' 'α'], .cls false [.rng 'Π' 'Π', .rng 'π' 'π', .rng 'ϖ' 'ϖ'], .cls false [.rng 'Ο' 'Ο', .rng 'ο' 'ο'], .lit [' '], .grp 1 (.number), .lit [' '], .cls false [.rng 'Ω' 'Ω', .rng 'ω' 'ω', .rng 'Ω' 'Ω'], .cls false [.rng 'Ρ' 'Ρ', .rng 'ρ' 'ρ', .rng 'ϱ' 'ϱ'], .cls false [.rng 'Α' 'Α', .rng 'α' 'α']], [.ref 1, .lit [' ', 'h', 'o', 'u', 'r', ' ', 'a', 'g', 'o']]),
    (.seqs [.cls false [.rng 'Σ' 'Σ', .rng 'ς' 'ς', .rng 'σ' 'σ'], .cls false [.rng 'Ε' 'Ε', .rng 'ε' 'ε', .rng 'ϵ' 'ϵ'], .lit [' '], .grp 1 (.number), .lit [' '], .cls false [.rng 'Ε' 'Ε', .rng 'ε' 'ε', .rng 'ϵ' 'ϵ'], .cls false [.rng 'Β' 'Β', .rng 'β' 'β', .rng 'ϐ' 'ϐ'], .cls false [.rng 'Δ' 'Δ', .rng 'δ' 'δ'], .cls false [.rng 'Ο' 'Ο', .rng 'ο' 'ο'], .cls false [.rng 'µ' 'µ', .rng 'Μ' 'Μ', .rng 'μ' 'μ'], .cls false [.rng 'Α' 'Α', .rng 'α' 'α'], .cls false [.rng 'Δ' 'Δ', .rng 'δ' 'δ'], .cls false [.rng 'Ε' 'Ε', .rng 'ε' 'ε', .rng 'ϵ' 'ϵ'], .cls false [.rng 'Σ' 'Σ', .rng 'ς' 'ς', .rng 'σ' 'σ']], [.lit ['i', 'n', ' '], .ref 1, .lit [' ', 'w', 'e', 'e', 'k']]),
    (.seqs [.cls false [.rng 'Π' 'Π', .rng 'π' 'π', .rng 'ϖ' 'ϖ'], .cls false [.rng 'Ρ' 'Ρ', .rng 'ρ' 'ρ', .rng 'ϱ' 'ϱ'], .cls false [.rng (Char.ofNat 0x345) (Char.ofNat 0x345), .rng 'Ι' 'Ι', .rng 'ι' 'ι', .rng 'ι' 'ι'], .cls false [.rng 'Ν' 'Ν', .rng 'ν' 'ν'], .lit [' '], .cls false [.rng 'Α' 'Α', .rng 'α' 'α'], .cls false [.rng 'Π' 'Π', .rng 'π' 'π', .rng 'ϖ' 'ϖ'], .cls false [.rng 'Ο' 'Ο', .rng 'ο' 'ο'], .lit [' '], .grp 1 (.number), .lit [' '], .cls false [.rng 'Ω' 'Ω', .rng 'ω' 'ω', .rng 'Ω' 'Ω'], .cls false [.rng 'Ρ' 'Ρ', .rng 'ρ' 'ρ', .rng 'ϱ' 'ϱ']], [.ref 1, .lit [' ', 'h', 'o', 'u', 'r', ' ', 'a', 'g', 'o']]),
    (.seqs [.cls false [.rng 'Σ' 'Σ', .rng 'ς' 'ς', .rng 'σ' 'σ'], .cls false [.rng 'Ε' 'Ε', .rng 'ε' 'ε', .rng 'ϵ' 'ϵ'], .lit [' '], .grp 1 (.number), .lit [' '], .cls false [.rng 'Ε' 'Ε', .rng 'ε' 'ε', .rng 'ϵ' 'ϵ'], .cls false [.rng 'Β' 'Β', .rng 'β' 'β', .rng 'ϐ' 'ϐ'], .cls false [.rng 'Δ' 'Δ', .rng 'δ' 'δ'], .cls false [.rng 'Ο' 'Ο', .rng 'ο' 'ο'], .cls false [.rng 'µ' 'µ', .rng 'Μ' 'Μ', .rng 'μ' 'μ'], .cls false [.rng 'Α' 'Α', .rng 'α' 'α'], .cls false [.rng 'Δ' 'Δ', .rng 'δ' 'δ'], .cls false [.rng 'Α' 'Α', .rng 'α' 'α']], [.lit ['i', 'n', ' '], .ref 1, .lit [' ', 'w', 'e', 'e', 'k']]),
    (.seqs [.grp 1 (.number), .lit [' '], .cls false [.rng 'Ε' 'Ε', .rng 'ε' 'ε', .rng 'ϵ' 'ϵ'], .cls false [.rng 'Τ' 'Τ', .rng 'τ' 'τ'], .cls false [.rng 'Ο' 'Ο', .rng 'ο' 'ο'], .cls false [.rng 'Σ' 'Σ', .rng 'ς' 'ς', .rng 'σ' 'σ'], .lit [' '], .cls false [.rng 'Π' 'Π', .rng 'π' 'π', .rng 'ϖ' 'ϖ'], .cls false [.rng 'Ρ' 'Ρ', .rng 'ρ' 'ρ', .rng 'ϱ' 'ϱ'], .cls false [.rng (Char.ofNat 0x345) (Char.ofNat 0x345), .rng 'Ι' 'Ι', .rng 'ι' 'ι', .rng 'ι' 'ι'], .cls false [.rng 'Ν' 'Ν', .rng 'ν' 'ν']], [.ref 1, .lit [' ', 'y', 'e', 'a', 'r', ' ', 'a', 'g', 'o']]),
    (.seqs [.cls false [.rng 'Σ' 'Σ', .rng 'ς' 'ς', .rng 'σ' 'σ'], .cls false [.rng 'Ε' 'Ε', .rng 'ε' 'ε', .rng 'ϵ' 'ϵ'], .lit [' '], .grp 1 (.number), .lit [' '], .cls false [.rng 'Η' 'Η', .rng 'η' 'η'], .cls false [.rng 'µ' 'µ', .rng 'Μ' 'Μ', .rng 'μ' 'μ'], .cls false [.rng 'Ε' 'Ε', .rng 'ε' 'ε', .rng 'ϵ' 'ϵ'], .cls false [.rng 'Ρ' 'Ρ', .rng 'ρ' 'ρ', .rng 'ϱ' 'ϱ'], .cls false [.rng 'Ε' 'Ε', .rng 'ε' 'ε', .rng 'ϵ' 'ϵ'], .cls false [.rng 'Σ' 'Σ', .rng 'ς' 'ς', .rng 'σ' 'σ']], [.lit ['i', 'n', ' '], .ref 1, .lit [' ', 'd', 'a', 'y']]),
    (.seqs [.grp 1 (.number), .lit [' '], .cls false [.rng 'Ε' 'Ε', .rng 'ε' 'ε', .rng 'ϵ' 'ϵ'], .cls false [.rng 'Β' 'Β', .rng 'β' 'β', .rng 'ϐ' 'ϐ'], .cls false [.rng 'Δ' 'Δ', .rng 'δ' 'δ'], .lit [' '], .cls false [.rng 'Π' 'Π', .rng 'π' 'π', .rng 'ϖ' 'ϖ'], .cls false [.rng 'Ρ' 'Ρ', .rng 'ρ' 'ρ', .rng 'ϱ' 'ϱ'], .cls false [.rng (Char.ofNat 0x345) (Char.ofNat 0x345), .rng 'Ι' 'Ι', .rng 'ι' 'ι', .rng 'ι' 'ι'], .cls false [.rng 'Ν' 'Ν', .rng 'ν' 'ν']], [.ref 1, .lit [' ', 'w', 'e', 'e', 'k', ' ', 'a', 'g', 'o']]),
    (.seqs [.grp 1 (.number), .lit [' '], .cls false [.rng 'Ε' 'Ε', .rng 'ε' 'ε', .rng 'ϵ' 'ϵ'], .cls false [.rng 'Τ' 'Τ', .rng 'τ' 'τ'], .cls false [.rng 'Η' 'Η', .rng 'η' 'η'], .lit [' '], .cls false [.rng 'Π' 'Π', .rng 'π' 'π', .rng 'ϖ' 'ϖ'], .cls false [.rng 'Ρ' 'Ρ', .rng 'ρ' 'ρ', .rng 'ϱ' 'ϱ'], .cls false [.rng (Char.ofNat 0x345) (Char.ofNat 0x345), .rng 'Ι' 'Ι', .rng 'ι' 'ι', .rng 'ι' 'ι'], .cls false [.rng 'Ν' 'Ν', .rng 'ν' 'ν']], [.ref 1, .lit [' ', 'y', 'e', 'a', 'r', ' ', 'a', 'g', 'o']]),
    (.seqs [.cls false [.rng 'Σ' 'Σ', .rng 'ς' 'ς', .rng 'σ' 'σ'], .cls false [.rng 'Ε' 'Ε', .rng 'ε' 'ε', .rng 'ϵ' 'ϵ'], .lit [' '], .grp 1 (.number), .lit [' '], .cls false [.rng 'Η' 'Η', .rng 'η' 'η'], .cls false [.rng 'µ' 'µ', .rng 'Μ' 'Μ', .rng 'μ' 'μ'], .cls false [.rng 'Ε' 'Ε', .rng 'ε' 'ε', .rng 'ϵ' 'ϵ'], .cls false [.rng 'Ρ' 'Ρ', .rng 'ρ' 'ρ', .rng 'ϱ' 'ϱ'], .cls false [.rng 'Α' 'Α', .rng 'α' 'α']], [.lit ['i', 'n', ' '], .ref 1, .lit [' ', 'd', 'a', 'y']]),
    (.seqs [.cls false [.rng 'Σ' 'Σ', .rng 'ς' 'ς', .rng 'σ' 'σ'], .cls false [.rng 'Ε' 'Ε', .rng 'ε' 'ε', .rng 'ϵ' 'ϵ'], .lit [' '], .grp 1 (.number), .lit [' '], .cls false [.rng 'Λ' 'Λ', .rng 'λ' 'λ'], .cls false [.rng 'Ε' 'Ε', .rng 'ε' 'ε', .rng 'ϵ' 'ϵ'], .cls false [.rng 'Π' 'Π', .rng 'π' 'π', .rng 'ϖ' 'ϖ'], .cls false [.rng 'Τ' 'Τ', .rng 'τ' 'τ'], .cls false [.rng 'Α' 'Α', .rng 'α' 'α']], [.lit ['i', 'n', ' '], .ref 1, .lit [' ', 'm', 'i', 'n', 'u', 't', 'e']]),
    (.seqs [.cls false [.rng 'Σ' 'Σ', .rng 'ς' 'ς', .rng 'σ' 'σ'], .cls false [.rng 'Ε' 'Ε', .rng 'ε' 'ε', .rng 'ϵ' 'ϵ'], .lit [' '], .grp 1 (.number), .lit [' '], .cls false [.rng 'Λ' 'Λ', .rng 'λ' 'λ'], .cls false [.rng 'Ε' 'Ε', .rng 'ε' 'ε', .rng 'ϵ' 'ϵ'], .cls false [.rng 'Π' 'Π', .rng 'π' 'π', .rng 'ϖ' 'ϖ'], .cls false [.rng 'Τ' 'Τ', .rng 'τ' 'τ'], .cls false [.rng 'Ο' 'Ο', .rng 'ο' 'ο']], [.lit ['i', 'n', ' '], .ref 1, .lit [' ', 'm', 'i', 'n', 'u', 't', 'e']]),
    (.seqs [.cls false [.rng 'Σ' 'Σ', .rng 'ς' 'ς', .rng 'σ' 'σ'], .cls false [.rng 'Ε' 'Ε', .rng 'ε' 'ε', .rng 'ϵ' 'ϵ'], .lit [' '], .grp 1 (.number), .lit [' '], .cls false [.rng 'µ' 'µ', .rng 'Μ' 'Μ', .rng 'μ' 'μ'], .cls false [.rng 'Η' 'Η', .rng 'η' 'η'], .cls false [.rng 'Ν' 'Ν', .rng 'ν' 'ν'], .cls false [.rng 'Ε' 'Ε', .rng 'ε' 'ε', .rng 'ϵ' 'ϵ'], .cls false [.rng 'Σ' 'Σ', .rng 'ς' 'ς', .rng 'σ' 'σ']], [.lit ['i', 'n', ' '], .ref 1, .lit [' ', 'm', 'o', 'n', 't', 'h']]),
    (.seqs [.grp 1 (.number), .lit [' '], .cls false [.rng 'Η' 'Η', .rng 'η' 'η'], .cls false [.rng 'µ' 'µ', .rng 'Μ' 'Μ', .rng 'μ' 'μ'], .lit [' '], .cls false [.rng 'Π' 'Π', .rng 'π' 'π', .rng 'ϖ' 'ϖ'], .cls false [.rng 'Ρ' 'Ρ', .rng 'ρ' 'ρ', .rng 'ϱ' 'ϱ'], .cls false [.rng (Char.ofNat 0x345) (Char.ofNat 0x345), .rng 'Ι' 'Ι', .rng 'ι' 'ι', .rng 'ι' 'ι'], .cls false [.rng 'Ν' 'Ν', .rng 'ν' 'ν']], [.ref 1, .lit [' ', 'd', 'a', 'y', ' ', 'a', 'g', 'o']]),
    (.seqs [.cls false [.rng 'Σ' 'Σ', .rng 'ς' 'ς', .rng 'σ' 'σ'], .cls false [.rng 'Ε' 'Ε', .rng 'ε' 'ε', .rng 'ϵ' 'ϵ'], .lit [' '], .grp 1 (.number), .lit [' '], .cls false [.rng 'Δ' 'Δ', .rng 'δ' 'δ'], .cls false [.rng 'Ε' 'Ε', .rng 'ε' 'ε', .rng 'ϵ' 'ϵ'], .cls false [.rng 'Υ' 'Υ', .rng 'υ' 'υ'], .cls false [.rng 'Τ' 'Τ', .rng 'τ' 'τ']], [.lit ['i', 'n', ' '], .ref 1, .lit [' ', 's', 'e', 'c', 'o', 'n', 'd']]),
    (.seqs [.cls false [.rng 'Σ' 'Σ', .rng 'ς' 'ς', .rng 'σ' 'σ'], .cls false [.rng 'Ε' 'Ε', .rng 'ε' 'ε', .rng 'ϵ' 'ϵ'], .lit [' '], .grp 1 (.number), .lit [' '], .cls false [.rng 'Ε' 'Ε', .rng 'ε' 'ε', .rng 'ϵ' 'ϵ'], .cls false [.rng 'Τ' 'Τ', .rng 'τ' 'τ'], .cls false [.rng 'Ο' 'Ο', .rng 'ο' 'ο'], .cls false [.rng 'Σ' 'Σ', .rng 'ς' 'ς', .rng 'σ' 'σ']], [.lit ['i', 'n', ' '], .ref 1, .lit [' ', 'y', 'e', 'a', 'r']]),
    (.seqs [.cls false [.rng 'Σ' 'Σ', .rng 'ς' 'ς', .rng 'σ' 'σ'], .cls false [.rng 'Ε' 'Ε', .rng 'ε' 'ε', .rng 'ϵ' 'ϵ'], .lit [' '], .grp 1 (.number), .lit [' '], .cls false [.rng 'µ' 'µ', .rng 'Μ' 'Μ', .rng 'μ' 'μ'], .cls false [.rng 'Η' 'Η', .rng 'η' 'η'], .cls false [.rng 'Ν' 'Ν', .rng 'ν' 'ν'], .cls false [.rng 'Α' 'Α', .rng 'α' 'α']], [.lit ['i', 'n', ' '], .ref 1, .lit [' ', 'm', 'o', 'n', 't', 'h']]),
    (.seqs [.cls false [.rng 'Σ' 'Σ', .rng 'ς' 'ς', .rng 'σ' 'σ'], .cls false [.rng 'Ε' 'Ε', .rng 'ε' 'ε', .rng 'ϵ' 'ϵ'], .lit [' '], .grp 1 (.number), .lit [' '], .cls false [.rng 'Ω' 'Ω', .rng 'ω' 'ω', .rng 'Ω' 'Ω'], .cls false [.rng 'Ρ' 'Ρ', .rng 'ρ' 'ρ', .rng 'ϱ' 'ϱ'], .cls false [.rng 'Ε' 'Ε', .rng 'ε' 'ε', .rng 'ϵ' 'ϵ'], .cls false [.rng 'Σ' 'Σ', .rng 'ς' 'ς', .rng 'σ' 'σ']], [.lit ['i', 'n', ' '], .ref 1, .lit [' ', 'h', 'o', 'u', 'r']]),
    (.seqs [.grp 1 (.number), .lit [' '], .cls false [.rng 'Δ' 'Δ', .rng 'δ' 'δ'], .lit [' '], .cls false [.rng 'Π' 'Π', .rng 'π' 'π', .rng 'ϖ' 'ϖ'], .cls false [.rng 'Ρ' 'Ρ', .rng 'ρ' 'ρ', .rng 'ϱ' 'ϱ'], .cls false [.rng (Char.ofNat 0x345) (Char.ofNat 0x345), .rng 'Ι' 'Ι', .rng 'ι' 'ι', .rng 'ι' 'ι'], .cls false [.rng 'Ν' 'Ν', .rng 'ν' 'ν']], [.ref 1, .lit [' ', 's', 'e', 'c', 'o', 'n', 'd', ' ', 'a', 'g', 'o']]),
    (.seqs [.grp 1 (.number), .lit [' '], .cls false [.rng 'Λ' 'Λ', .rng 'λ' 'λ'], .lit [' '], .cls false [.rng 'Π' 'Π', .rng 'π' 'π', .rng 'ϖ' 'ϖ'], .cls false [.rng 'Ρ' 'Ρ', .rng 'ρ' 'ρ', .rng 'ϱ' 'ϱ'], .cls false [.rng (Char.ofNat 0x345) (Char.ofNat 0x345), .rng 'Ι' 'Ι', .rng 'ι' 'ι', .rng 'ι' 'ι'], .cls false [.rng 'Ν' 'Ν', .rng 'ν' 'ν']], [.ref 1, .lit [' ', 'm', 'i', 'n', 'u', 't', 'e', ' ', 'a', 'g', 'o']]),
    (.seqs [.grp 1 (.number), .lit [' '], .cls false [.rng 'µ' 'µ', .rng 'Μ' 'Μ', .rng 'μ' 'μ'], .lit [' '], .cls false [.rng 'Π' 'Π', .rng 'π' 'π', .rng 'ϖ' 'ϖ'], .cls false [.rng 'Ρ' 'Ρ', .rng 'ρ' 'ρ', .rng 'ϱ' 'ϱ'], .cls false [.rng (Char.ofNat 0x345) (Char.ofNat 0x345), .rng 'Ι' 'Ι', .rng 'ι' 'ι', .rng 'ι' 'ι'], .cls false [.rng 'Ν' 'Ν', .rng 'ν' 'ν']], [.ref 1, .lit [' ', 'm', 'o', 'n', 't', 'h', ' ', 'a', 'g', 'o']]),
    (.seqs [.grp 1 (.number), .lit [' '], .cls false [.rng 'Ω' 'Ω', .rng 'ω' 'ω', .rng 'Ω' 'Ω'], .lit [' '], .cls false [.rng 'Π' 'Π', .rng 'π' 'π', .rng 'ϖ' 'ϖ'], .cls false [.rng 'Ρ' 'Ρ', .rng 'ρ' 'ρ', .rng 'ϱ' 'ϱ'], .cls false [.rng (Char.ofNat 0x345) (Char.ofNat 0x345), .rng 'Ι' 'Ι', .rng 'ι' 'ι', .rng 'ι' 'ι'], .cls false [.rng 'Ν' 'Ν', .rng 'ν' 'ν']], [.ref 1, .lit [' ', 'h', 'o', 'u', 'r', ' ', 'a', 'g', 'o']]),
    (.seqs [.cls false [.rng 'Σ' 'Σ', .rng 'ς' 'ς', .rng 'σ' 'σ'], .cls false [.rng 'Ε' 'Ε', .rng 'ε' 'ε', .rng 'ϵ' 'ϵ'], .lit [' '], .grp 1 (.number), .lit [' '], .cls false [.rng 'Ε' 'Ε', .rng 'ε' 'ε', .rng 'ϵ' 'ϵ'], .cls false [.rng 'Β' 'Β', .rng 'β' 'β', .rng 'ϐ' 'ϐ'], .cls false [.rng 'Δ' 'Δ', .rng 'δ' 'δ']], [.lit ['i', 'n', ' '], .ref 1, .lit [' ', 'w', 'e', 'e', 'k']]),
    (.seqs [.cls false [.rng 'Σ' 'Σ', .rng 'ς' 'ς', .rng 'σ' 'σ'], .cls false [.rng 'Ε' 'Ε', .rng 'ε' 'ε', .rng 'ϵ' 'ϵ'], .lit [' '], .grp 1 (.number), .lit [' '], .cls false [.rng 'Ε' 'Ε', .rng 'ε' 'ε', .rng 'ϵ' 'ϵ'], .cls false [.rng 'Τ' 'Τ', .rng 'τ' 'τ'], .cls false [.rng 'Η' 'Η', .rng 'η' 'η']], [.lit ['i', 'n', ' '], .ref 1, .lit [' ', 'y', 'e', 'a', 'r']]),
    (.seqs [.cls false [.rng 'Σ' 'Σ', .rng 'ς' 'ς', .rng 'σ' 'σ'], .cls false [.rng 'Ε' 'Ε', .rng 'ε' 'ε', .rng 'ϵ' 'ϵ'], .lit [' '], .grp 1 (.number), .lit [' '], .cls false [.rng 'Λ' 'Λ', .rng 'λ' 'λ'], .cls false [.rng 'Ε' 'Ε', .rng 'ε' 'ε', .rng 'ϵ' 'ϵ'], .cls false [.rng 'Π' 'Π', .rng 'π' 'π', .rng 'ϖ' 'ϖ']], [.lit ['i', 'n', ' '], .ref 1, .lit [' ', 'm', 'i', 'n', 'u', 't', 'e']]),
    (.seqs [.cls false [.rng 'Σ' 'Σ', .rng 'ς' 'ς', .rng 'σ' 'σ'], .cls false [.rng 'Ε' 'Ε', .rng 'ε' 'ε', .rng 'ϵ' 'ϵ'], .lit [' '], .grp 1 (.number), .lit [' '], .cls false [.rng 'Ω' 'Ω', .rng 'ω' 'ω', .rng 'Ω' 'Ω'], .cls false [.rng 'Ρ' 'Ρ', .rng 'ρ' 'ρ', .rng 'ϱ' 'ϱ'], .cls false [.rng 'Α' 'Α', .rng 'α' 'α']], [.lit ['i', 'n', ' '], .ref 1, .lit [' ', 'h', 'o', 'u', 'r']]),
    (.seqs [.cls false [.rng 'Σ' 'Σ', .rng 'ς' 'ς', .rng 'σ' 'σ'], .cls false [.rng 'Ε' 'Ε', .rng 'ε' 'ε', .rng 'ϵ' 'ϵ'], .lit [' '], .grp 1 (.number), .lit [' '], .cls false [.rng 'Η' 'Η', .rng 'η' 'η'], .cls false [.rng 'µ' 'µ', .rng 'Μ' 'Μ', .rng 'μ' 'μ']], [.lit ['i', 'n', ' '], .ref 1, .lit [' ', 'd', 'a', 'y']]),
    (.seqs [.cls false [.rng 'Σ' 'Σ', .rng 'ς' 'ς', .rng 'σ' 'σ'], .cls false [.rng 'Ε' 'Ε', .rng 'ε' 'ε', .rng 'ϵ' 'ϵ'], .lit [' '], .grp 1 (.number), .lit [' '], .cls false [.rng 'Ω' 'Ω', .rng 'ω' 'ω', .rng 'Ω' 'Ω'], .cls false [.rng 'Ρ' 'Ρ', .rng 'ρ' 'ρ', .rng 'ϱ' 'ϱ']], [.lit ['i', 'n', ' '], .ref 1, .lit [' ', 'h', 'o', 'u', 'r']]),
    (.seqs [.cls false [.rng 'Σ' 'Σ', .rng 'ς' 'ς', .rng 'σ' 'σ'], .cls false [.rng 'Ε' 'Ε', .rng 'ε' 'ε', .rng 'ϵ' 'ϵ'], .lit [' '], .grp 1 (.number), .lit [' '], .cls false [.rng 'Δ' 'Δ', .rng 'δ' 'δ']], [.lit ['i', 'n', ' '], .ref 1, .lit [' ', 's', 'e', 'c', 'o', 'n', 'd']]),
    (.seqs [.cls false [.rng 'Σ' 'Σ', .rng 'ς' 'ς', .rng 'σ' 'σ'], .cls false [.rng 'Ε' 'Ε', .rng 'ε' 'ε', .rng 'ϵ' 'ϵ'], .lit [' '], .grp 1 (.number), .lit [' '], .cls false [.rng 'Λ' 'Λ', .rng 'λ' 'λ']], [.lit ['i', 'n', ' '], .ref 1, .lit [' ', 'm', 'i', 'n', 'u', 't', 'e']]),
    (.seqs [.cls false [.rng 'Σ' 'Σ', .rng 'ς' 'ς', .rng 'σ' 'σ'], .cls false [.rng 'Ε' 'Ε', .rng 'ε' 'ε', .rng 'ϵ' 'ϵ'], .lit [' '], .grp 1 (.number), .lit [' '], .cls false [.rng 'µ' 'µ', .rng 'Μ' 'Μ', .rng 'μ' 'μ']], [.lit ['i', 'n', ' '], .ref 1, .lit [' ', 'm', 'o', 'n', 't', 'h']]),
    (.seqs [.cls false [.rng 'Σ' 'Σ', .rng 'ς' 'ς', .rng 'σ' 'σ'], .cls false [.rng 'Ε' 'Ε', .rng 'ε' 'ε', .rng 'ϵ' 'ϵ'], .lit [' '], .grp 1 (.number), .lit [' '], .cls false [.rng 'Ω' 'Ω', .rng 'ω' 'ω', .rng 'Ω' 'Ω']], [.lit ['i', 'n', ' '], .ref 1, .lit [' ', 'h', 'o', 'u', 'r']])],
  rxCombined := some (.seqs [.grp 1 (.alts [.bos, .cls true [.letter, .mark, .digit], .lit ['_']]), .grp 2 (.alts [.seqs [.cls false [.rng 'Π' 'Π', .rng 'π' 'π', .rng 'ϖ' 'ϖ'], .cls false [.rng 'Ρ' 'Ρ', .rng 'ρ' 'ρ', .rng 'ϱ' 'ϱ'], .cls false [.rng (Char.ofNat 0x345) (Char.ofNat 0x345), .rng 'Ι' 'Ι', .rng 'ι' 'ι', .rng 'ι' 'ι'], .cls false [.rng 'Ν' 'Ν', .rng 'ν' 'ν'], .lit [' '], .cls false [.rng 'Α' 'Α', .rng 'α' 'α'], .cls false [.rng 'Π' 'Π', .rng 'π' 'π', .rng 'ϖ' 'ϖ'], .cls false [.rng 'Ο' 'Ο', .rng 'ο' 'ο'], .lit [' '], .number, .lit [' '], .cls false [.rng 'Δ' 'Δ', .rng 'δ' 'δ'], .cls false [.rng 'Ε' 'Ε', .rng 'ε' 'ε', .rng 'ϵ' 'ϵ'], .cls false [.rng 'Υ' 'Υ', .rng 'υ' 'υ'], .cls false [.rng 'Τ' 'Τ', .rng 'τ' 'τ'], .cls false [.rng 'Ε' 'Ε', .rng 'ε' 'ε', .rng 'ϵ' 'ϵ'], .cls false [.rng 'Ρ' 'Ρ', .rng 'ρ' 'ρ', .rng 'ϱ' 'ϱ'], .cls false [.rng 'Ο' 'Ο', .rng 'ο' 'ο'], .cls false [.rng 'Λ' 'Λ', .rng 'λ' 'λ'], .cls false [.rng 'Ε' 'Ε', .rng 'ε' 'ε', .rng 'ϵ' 'ϵ'], .cls false [.rng 'Π' 'Π', .rng 'π' 'π', .rng 'ϖ' 'ϖ'], .cls false [.rng 'Τ' 'Τ', .rng 'τ' 'τ'], .cls false [.rng 'Α' 'Α', .rng 'α' 'α']], .seqs [.cls false [.rng 'Π' 'Π', .rng 'π' 'π', .rng 'ϖ' 'ϖ'], .cls false [.rng 'Ρ' 'Ρ', .rng 'ρ' 'ρ', .rng 'ϱ' 'ϱ'], .cls false [.rng (Char.ofNat 0x345) (Char.ofNat 0x345), .rng 'Ι' 'Ι', .rng 'ι' 'ι', .rng 'ι' 'ι'], .cls false [.rng 'Ν' 'Ν', .rng 'ν' 'ν'], .lit [' '], .cls false [.rng 'Α' 'Α', .rng 'α' 'α'], .cls false [.rng 'Π' 'Π', .rng 'π' 'π', .rng 'ϖ' 'ϖ'], .cls false [.rng 'Ο' 'Ο', .rng 'ο' 'ο'], .lit [' '], .number, .lit [' '], .cls false [.rng 'Δ' 'Δ', .rng 'δ' 'δ'], .cls false [.rng 'Ε' 'Ε', .rng 'ε' 'ε', .rng 'ϵ' 'ϵ'], .cls false [.rng 'Υ' 'Υ', .rng 'υ' 'υ'], .cls false [.rng 'Τ' 'Τ', .rng 'τ' 'τ'], .cls false [.rng 'Ε' 'Ε', .rng 'ε' 'ε', .rng 'ϵ' 'ϵ'], .cls false [.rng 'Ρ' 'Ρ', .rng 'ρ' 'ρ', .rng 'ϱ' 'ϱ'], .cls false [.rng 'Ο' 'Ο', .rng 'ο' 'ο'], .cls false [.rng 'Λ' 'Λ', .rng 'λ' 'λ'], .cls false [.rng 'Ε' 'Ε', .rng 'ε' 'ε', .rng 'ϵ' 'ϵ'], .cls false [.rng 'Π' 'Π', .rng 'π' 'π', .rng 'ϖ' 'ϖ'], .cls false [.rng 'Τ' 'Τ', .rng 'τ' 'τ'], .cls false [.rng 'Ο' 'Ο', .rng 'ο' 'ο']], .seqs [.cls false [.rng 'Π' 'Π', .rng 'π' 'π', .rng 'ϖ' 'ϖ'], .cls false [.rng 'Ρ' 'Ρ', .rng 'ρ' 'ρ', .rng 'ϱ' 'ϱ'], .cls false [.rng (Char.ofNat 0x345) (Char.ofNat 0x345), .rng 'Ι' 'Ι', .rng 'ι' 'ι', .rng 'ι' 'ι'], .cls false [.rng 'Ν' 'Ν', .rng 'ν' 'ν'], .lit [' '], .cls false [.rng 'Α' 'Α', .rng 'α' 'α'], .cls false [.rng 'Π' 'Π', .rng 'π' 'π', .rng 'ϖ' 'ϖ'], .cls false [.rng 'Ο' 'Ο', .rng 'ο' 'ο'], .lit [' '], .number, .lit [' '], .cls false [.rng 'Ε' 'Ε', .rng 'ε' 'ε', .rng 'ϵ' 'ϵ'], .cls false [.rng 'Β' 'Β', .rng 'β' 'β', .rng 'ϐ' 'ϐ'], .cls false [.rng 'Δ' 'Δ', .rng 'δ' 'δ'], .cls false [.rng 'Ο' 'Ο', .rng 'ο' 'ο'], .cls false [.rng 'µ' 'µ', .rng 'Μ' 'Μ', .rng 'μ' 'μ'], .cls false [.rng 'Α' 'Α', .rng 'α' 'α'], .cls false [.rng 'Δ' 'Δ', .rng 'δ' 'δ'], .cls false [.rng 'Ε' 'Ε', .rng 'ε' 'ε', .rng 'ϵ' 'ϵ'], .cls false [.rng 'Σ' 'Σ', .rng 'ς' 'ς', .rng 'σ' 'σ']], .seqs [.cls false [.rng 'Π' 'Π', .rng 'π' 'π', .rng 'ϖ' 'ϖ'], .cls false [.rng 'Ρ' 'Ρ', .rng 'ρ' 'ρ', .rng 'ϱ' 'ϱ'], .cls false [.rng (Char.ofNat 0x345) (Char.ofNat 0x345), .rng 'Ι' 'Ι', .rng 'ι' 'ι', .rng 'ι' 'ι'], .cls false [.rng 'Ν' 'Ν', .rng 'ν' 'ν'], .lit [' '], .cls false [.rng 'Α' 'Α', .rng 'α' 'α'], .cls false [.rng 'Π' 'Π', .rng 'π' 'π', .rng 'ϖ' 'ϖ'], .cls false [.rng 'Ο' 'Ο', .rng 'ο' 'ο'], .lit [' '], .number, .lit [' '], .cls false [.rng 'Ε' 'Ε', .rng 'ε' 'ε', .rng 'ϵ' 'ϵ'], .cls false [.rng 'Β' 'Β', .rng 'β' 'β', .rng 'ϐ' 'ϐ'], .cls false [.rng 'Δ' 'Δ', .rng 'δ' 'δ'], .cls false [.rng 'Ο' 'Ο', .rng 'ο' 'ο'], .cls false [.rng 'µ' 'µ', .rng 'Μ' 'Μ', .rng 'μ' 'μ'], .cls false [.rng 'Α' 'Α', .rng 'α' 'α'], .cls false [.rng 'Δ' 'Δ', .rng 'δ' 'δ'], .cls false [.rng 'Α' 'Α', .rng 'α' 'α']], .seqs [.cls false [.rng 'Π' 'Π', .rng 'π' 'π', .rng 'ϖ' 'ϖ'], .cls false [.rng 'Ρ' 'Ρ', .rng 'ρ' 'ρ', .rng 'ϱ' 'ϱ'], .cls false [.rng (Char.ofNat 0x345) (Char.ofNat 0x345), .rng 'Ι' 'Ι', .rng 'ι' 'ι', .rng 'ι' 'ι'], .cls false [.rng 'Ν' 'Ν', .rng 'ν' 'ν'], .lit [' '], .cls false [.rng 'Α' 'Α', .rng 'α' 'α'], .cls false [.rng 'Π' 'Π', .rng 'π' 'π', .rng 'ϖ' 'ϖ'], .cls false [.rng 'Ο' 'Ο', .rng 'ο' 'ο'], .lit [' '], .number, .lit [' '], .cls false [.rng 'Η' 'Η', .rng 'η' 'η'], .cls false [.rng 'µ' 'µ', .rng 'Μ' 'Μ', .rng 'μ' 'μ'], .cls false [.rng 'Ε' 'Ε', .rng 'ε' 'ε', .rng 'ϵ' 'ϵ'], .cls false [.rng 'Ρ' 'Ρ', .rng 'ρ' 'ρ', .rng 'ϱ' 'ϱ'], .cls false [.rng 'Ε' 'Ε', .rng 'ε' 'ε', .rng 'ϵ' 'ϵ'], .cls false [.rng 'Σ' 'Σ', .rng 'ς' 'ς', .rng 'σ' 'σ']], .seqs [.cls false [.rng 'Σ' 'Σ', .rng 'ς' 'ς', .rng 'σ' 'σ'], .cls false [.rng 'Ε' 'Ε', .rng 'ε' 'ε', .rng 'ϵ' 'ϵ'], .lit [' '], .number, .lit [' '], .cls false [.rng 'Δ' 'Δ', .rng 'δ' 'δ'], .cls false [.rng 'Ε' 'Ε', .rng 'ε' 'ε', .rng 'ϵ' 'ϵ'], .cls false [.rng 'Υ' 'Υ', .rng 'υ' 'υ'], .cls false [.rng 'Τ' 'Τ', .rng 'τ' 'τ'], .cls false [.rng 'Ε' 'Ε', .rng 'ε' 'ε', .rng 'ϵ' 'ϵ'], .cls false [.rng 'Ρ' 'Ρ', .rng 'ρ' 'ρ', .rng 'ϱ' 'ϱ'], .cls false [.rng 'Ο' 'Ο', .rng 'ο' 'ο'], .cls false [.rng 'Λ' 'Λ', .rng 'λ' 'λ'], .cls false [.rng 'Ε' 'Ε', .rng 'ε' 'ε', .rng 'ϵ' 'ϵ'], .cls false [.rng 'Π' 'Π', .rng 'π' 'π', .rng 'ϖ' 'ϖ'], .cls false [.rng 'Τ' 'Τ', .rng 'τ' 'τ'], .cls false [.rng 'Α' 'Α', .rng 'α' 'α']], .seqs [.cls false [.rng 'Σ' 'Σ', .rng 'ς' 'ς', .rng 'σ' 'σ'], .cls false [.rng 'Ε' 'Ε', .rng 'ε' 'ε', .rng 'ϵ' 'ϵ'], .lit [' '], .number, .lit [' '], .cls false [.rng 'Δ' 'Δ', .rng 'δ' 'δ'], .cls false [.rng 'Ε' 'Ε', .rng 'ε' 'ε', .rng 'ϵ' 'ϵ'], .cls false [.rng 'Υ' 'Υ', .rng 'υ' 'υ'], .cls false [.rng 'Τ' 'Τ', .rng 'τ' 'τ'], .cls false [.rng 'Ε' 'Ε', .rng 'ε' 'ε', .rng 'ϵ' 'ϵ'], .cls false [.rng 'Ρ' 'Ρ', .rng 'ρ' 'ρ', .rng 'ϱ' 'ϱ'], .cls false [.rng 'Ο' 'Ο', .rng 'ο' 'ο'], .cls false [.rng 'Λ' 'Λ', .rng 'λ' 'λ'], .cls false [.rng 'Ε' 'Ε', .rng 'ε' 'ε', .rng 'ϵ' 'ϵ'], .cls false [.rng 'Π' 'Π', .rng 'π' 'π', .rng 'ϖ' 'ϖ'], .cls false [.rng 'Τ' 'Τ', .rng 'τ' 'τ'], .cls false [.rng 'Ο' 'Ο', .rng 'ο' 'ο']], .seqs [.cls false [.rng 'Π' 'Π', .rng 'π' 'π', .rng 'ϖ' 'ϖ'], .cls false [.rng 'Ρ' 'Ρ', .rng 'ρ' 'ρ', .rng 'ϱ' 'ϱ'], .cls false [.rng (Char.ofNat 0x345) (Char.ofNat 0x345), .rng 'Ι' 'Ι', .rng 'ι' 'ι', .rng 'ι' 'ι'], .cls false [.rng 'Ν' 'Ν', .rng 'ν' 'ν'], .lit [' '], .cls false [.rng 'Α' 'Α', .rng 'α' 'α'], .cls false [.rng 'Π' 'Π', .rng 'π' 'π', .rng 'ϖ' 'ϖ'], .cls false [.rng 'Ο' 'Ο', .rng 'ο' 'ο'], .lit [' '], .number, .lit [' '], .cls false [.rng 'Η' 'Η', .rng 'η' 'η'], .cls false [.rng 'µ' 'µ', .rng 'Μ' 'Μ', .rng 'μ' 'μ'], .cls false [.rng 'Ε' 'Ε', .rng 'ε' 'ε', .rng 'ϵ' 'ϵ'], .cls false [.rng 'Ρ' 'Ρ', .rng 'ρ' 'ρ', .rng 'ϱ' 'ϱ'], .cls false [.rng 'Α' 'Α', .rng 'α' 'α']], .seqs [.cls false [.rng 'Π' 'Π', .rng 'π' 'π', .rng 'ϖ' 'ϖ'], .cls false [.rng 'Ρ' 'Ρ', .rng 'ρ' 'ρ', .rng 'ϱ' 'ϱ'], .cls false [.rng (Char.ofNat 0x345) (Char.ofNat 0x345), .rng 'Ι' 'Ι', .rng 'ι' 'ι', .rng 'ι' 'ι'], .cls false [.rng 'Ν' 'Ν', .rng 'ν' 'ν'], .lit [' '], .cls false [.rng 'Α' 'Α', .rng 'α' 'α'], .cls false [.rng 'Π' 'Π', .rng 'π' 'π', .rng 'ϖ' 'ϖ'], .cls false [.rng 'Ο' 'Ο', .rng 'ο' 'ο'], .lit [' '], .number, .lit [' '], .cls false [.rng 'Λ' 'Λ', .rng 'λ' 'λ'], .cls false [.rng 'Ε' 'Ε', .rng 'ε' 'ε', .rng 'ϵ' 'ϵ'], .cls false [.rng 'Π' 'Π', .rng 'π' 'π', .rng 'ϖ' 'ϖ'], .cls false [.rng 'Τ' 'Τ', .rng 'τ' 'τ'], .cls false [.rng 'Α' 'Α', .rng 'α' 'α']], .seqs [.cls false [.rng 'Π' 'Π', .rng 'π' 'π', .rng 'ϖ' 'ϖ'], .cls false [.rng 'Ρ' 'Ρ', .rng 'ρ' 'ρ', .rng 'ϱ' 'ϱ'], .cls false [.rng (Char.ofNat 0x345) (Char.ofNat 0x345), .rng 'Ι' 'Ι', .rng 'ι' 'ι', .rng 'ι' 'ι'], .cls false [.rng 'Ν' 'Ν', .rng 'ν' 'ν'], .lit [' '], .cls false [.rng 'Α' 'Α', .rng 'α' 'α'], .cls false [.rng 'Π' 'Π', .rng 'π' 'π', .rng 'ϖ' 'ϖ'], .cls false [.rng 'Ο' 'Ο', .rng 'ο' 'ο'], .lit [' '], .number, .lit [' '], .cls false [.rng 'Λ' 'Λ', .rng 'λ' 'λ'], .cls false [.rng 'Ε' 'Ε', .rng 'ε' 'ε', .rng 'ϵ' 'ϵ'], .cls false [.rng 'Π' 'Π', .rng 'π' 'π', .rng 'ϖ' 'ϖ'], .cls false [.rng 'Τ' 'Τ', .rng 'τ' 'τ'], .cls false [.rng 'Ο' 'Ο', .rng 'ο' 'ο']], .seqs [.cls false [.rng 'Π' 'Π', .rng 'π' 'π', .rng 'ϖ' 'ϖ'], .cls false [.rng 'Ρ' 'Ρ', .rng 'ρ' 'ρ', .rng 'ϱ' 'ϱ'], .cls false [.rng (Char.ofNat 0x345) (Char.ofNat 0x345), .rng 'Ι' 'Ι', .rng 'ι' 'ι', .rng 'ι' 'ι'], .cls false [.rng 'Ν' 'Ν', .rng 'ν' 'ν'], .lit [' '], .cls false [.rng 'Α' 'Α', .rng 'α' 'α'], .cls false [.rng 'Π' 'Π', .rng 'π' 'π', .rng 'ϖ' 'ϖ'], .cls false [.rng 'Ο' 'Ο', .rng 'ο' 'ο'], .lit [' '], .number, .lit [' '], .cls false [.rng 'µ' 'µ', .rng 'Μ' 'Μ', .rng 'μ' 'μ'], .cls false [.rng 'Η' 'Η', .rng 'η' 'η'], .cls false [.rng 'Ν' 'Ν', .rng 'ν' 'ν'], .cls false [.rng 'Ε' 'Ε', .rng 'ε' 'ε', .rng 'ϵ' 'ϵ'], .cls false [.rng 'Σ' 'Σ', .rng 'ς' 'ς', .rng 'σ' 'σ']], .seqs [.cls false [.rng 'Π' 'Π', .rng 'π' 'π', .rng 'ϖ' 'ϖ'], .cls false [.rng 'Ρ' 'Ρ', .rng 'ρ' 'ρ', .rng 'ϱ' 'ϱ'], .cls false [.rng (Char.ofNat 0x345) (Char.ofNat 0x345), .rng 'Ι' 'Ι', .rng 'ι' 'ι', .rng 'ι' 'ι'], .cls false [.rng 'Ν' 'Ν', .rng 'ν' 'ν'], .lit [' '], .cls false [.rng 'Α' 'Α', .rng 'α' 'α'], .cls false [.rng 'Π' 'Π', .rng 'π' 'π', .rng 'ϖ' 'ϖ'], .cls false [.rng 'Ο' 'Ο', .rng 'ο' 'ο'], .lit [' '], .number, .lit [' '], .cls false [.rng 'Δ' 'Δ', .rng 'δ' 'δ'], .cls false [.rng 'Ε' 'Ε', .rng 'ε' 'ε', .rng 'ϵ' 'ϵ'], .cls false [.rng 'Υ' 'Υ', .rng 'υ' 'υ'], .cls false [.rng 'Τ' 'Τ', .rng 'τ' 'τ']], .seqs [.cls false [.rng 'Π' 'Π', .rng 'π' 'π', .rng 'ϖ' 'ϖ'], .cls false [.rng 'Ρ' 'Ρ', .rng 'ρ' 'ρ', .rng 'ϱ' 'ϱ'], .cls false [.rng (Char.ofNat 0x345) (Char.ofNat 0x345), .rng 'Ι' 'Ι', .rng 'ι' 'ι', .rng 'ι' 'ι'], .cls false [.rng 'Ν' 'Ν', .rng 'ν' 'ν'], .lit [' '], .cls false [.rng 'Α' 'Α', .rng 'α' 'α'], .cls false [.rng 'Π' 'Π', .rng 'π' 'π', .rng 'ϖ' 'ϖ'], .cls false [.rng 'Ο' 'Ο', .rng 'ο' 'ο'], .lit [' '], .number, .lit [' '], .cls false [.rng 'Ε' 'Ε', .rng 'ε' 'ε', .rng 'ϵ' 'ϵ'], .cls false [.rng 'Τ' 'Τ', .rng 'τ' 'τ'], .cls false [.rng 'Ο' 'Ο', .rng 'ο' 'ο'], .cls false [.rng 'Σ' 'Σ', .rng 'ς' 'ς', .rng 'σ' 'σ']], .seqs [.cls false [.rng 'Π' 'Π', .rng 'π' 'π', .rng 'ϖ' 'ϖ'], .cls false [.rng 'Ρ' 'Ρ', .rng 'ρ' 'ρ', .rng 'ϱ' 'ϱ'], .cls false [.rng (Char.ofNat 0x345) (Char.ofNat 0x345), .rng 'Ι' 'Ι', .rng 'ι' 'ι', .rng 'ι' 'ι'], .cls false [.rng 'Ν' 'Ν', .rng 'ν' 'ν'], .lit [' '], .cls false [.rng 'Α' 'Α', .rng 'α' 'α'], .cls false [.rng 'Π' 'Π', .rng 'π' 'π', .rng 'ϖ' 'ϖ'], .cls false [.rng 'Ο' 'Ο', .rng 'ο' 'ο'], .lit [' '], .number, .lit [' '], .cls false [.rng 'µ' 'µ', .rng 'Μ' 'Μ', .rng 'μ' 'μ'], .cls false [.rng 'Η' 'Η', .rng 'η' 'η'], .cls false [.rng 'Ν' 'Ν', .rng 'ν' 'ν'], .cls false [.rng 'Α' 'Α', .rng 'α' 'α']], .seqs [.cls false [.rng 'Π' 'Π', .rng 'π' 'π', .rng 'ϖ' 'ϖ'], .cls false [.rng 'Ρ' 'Ρ', .rng 'ρ' 'ρ', .rng 'ϱ' 'ϱ'], .cls false [.rng (Char.ofNat 0x345) (Char.ofNat 0x345), .rng 'Ι' 'Ι', .rng 'ι' 'ι', .rng 'ι' 'ι'], .cls false [.rng 'Ν' 'Ν', .rng 'ν' 'ν'], .lit [' '], .cls false [.rng 'Α' 'Α', .rng 'α' 'α'], .cls false [.rng 'Π' 'Π', .rng 'π' 'π', .rng 'ϖ' 'ϖ'], .cls false [.rng 'Ο' 'Ο', .rng 'ο' 'ο'], .lit [' '], .number, .lit [' '], .cls false [.rng 'Ω' 'Ω', .rng 'ω' 'ω', .rng 'Ω' 'Ω'], .cls false [.rng 'Ρ' 'Ρ', .rng 'ρ' 'ρ', .rng 'ϱ' 'ϱ'], .cls false [.rng 'Ε' 'Ε', .rng 'ε' 'ε', .rng 'ϵ' 'ϵ'], .cls false [.rng 'Σ' 'Σ', .rng 'ς' 'ς', .rng 'σ' 'σ']], .seqs [.cls false [.rng 'Π' 'Π', .rng 'π' 'π', .rng 'ϖ' 'ϖ'], .cls false [.rng 'Ρ' 'Ρ', .rng 'ρ' 'ρ', .rng 'ϱ' 'ϱ'], .cls false [.rng (Char.ofNat 0x345) (Char.ofNat 0x345), .rng 'Ι' 'Ι', .rng 'ι' 'ι', .rng 'ι' 'ι'], .cls false [.rng 'Ν' 'Ν', .rng 'ν' 'ν'], .lit [' '], .cls false [.rng 'Α' 'Α', .rng 'α' 'α'], .cls false [.rng 'Π' 'Π', .rng 'π' 'π', .rng 'ϖ' 'ϖ'], .cls false [.rng 'Ο' 'Ο', .rng 'ο' 'ο'], .lit [' '], .number, .lit [' '], .cls false [.rng 'Ε' 'Ε', .rng 'ε' 'ε', .rng 'ϵ' 'ϵ'], .cls false [.rng 'Β' 'Β', .rng 'β' 'β', .rng 'ϐ' 'ϐ'], .cls false [.rng 'Δ' 'Δ', .rng 'δ' 'δ']], .seqs [.cls false [.rng 'Π' 'Π', .rng 'π' 'π', .rng 'ϖ' 'ϖ'], .cls false [.rng 'Ρ' 'Ρ', .rng 'ρ' 'ρ', .rng 'ϱ' 'ϱ'], .cls false [.rng (Char.ofNat 0x345) (Char.ofNat 0x345), .rng 'Ι' 'Ι', .rng 'ι' 'ι', .rng 'ι' 'ι'], .cls false [.rng 'Ν' 'Ν', .rng 'ν' 'ν'], .lit [' '], .cls false [.rng 'Α' 'Α', .rng 'α' 'α'], .cls false [.rng 'Π' 'Π', .rng 'π' 'π', .rng 'ϖ' 'ϖ'], .cls false [.rng 'Ο' 'Ο', .rng 'ο' 'ο'], .lit [' '], .number, .lit [' '], .cls false [.rng 'Ε' 'Ε', .rng 'ε' 'ε', .rng 'ϵ' 'ϵ'], .cls false [.rng 'Τ' 'Τ', .rng 'τ' 'τ'], .cls false [.rng 'Η' 'Η', .rng 'η' 'η']], .seqs [.cls false [.rng 'Π' 'Π', .rng 'π' 'π', .rng 'ϖ' 'ϖ'], .cls false [.rng 'Ρ' 'Ρ', .rng 'ρ' 'ρ', .rng 'ϱ' 'ϱ'], .cls false [.rng (Char.ofNat 0x345) (Char.ofNat 0x345), .rng 'Ι' 'Ι', .rng 'ι' 'ι', .rng 'ι' 'ι'], .cls false [.rng 'Ν' 'Ν', .rng 'ν' 'ν'], .lit [' '], .cls false [.rng 'Α' 'Α', .rng 'α' 'α'], .cls false [.rng 'Π' 'Π', .rng 'π' 'π', .rng 'ϖ' 'ϖ'], .cls false [.rng 'Ο' 'Ο', .rng 'ο' 'ο'], .lit [' '], .number, .lit [' '], .cls false [.rng 'Λ' 'Λ', .rng 'λ' 'λ'], .cls false [.rng 'Ε' 'Ε', .rng 'ε' 'ε', .rng 'ϵ' 'ϵ'], .cls false [.rng 'Π' 'Π', .rng 'π' 'π', .rng 'ϖ' 'ϖ']], .seqs [.cls false [.rng 'Π' 'Π', .rng 'π' 'π', .rng 'ϖ' 'ϖ'], .cls false [.rng 'Ρ' 'Ρ', .rng 'ρ' 'ρ', .rng 'ϱ' 'ϱ'], .cls false [.rng (Char.ofNat 0x345) (Char.ofNat 0x345), .rng 'Ι' 'Ι', .rng 'ι' 'ι', .rng 'ι' 'ι'], .cls false [.rng 'Ν' 'Ν', .rng 'ν' 'ν'], .lit [' '], .cls false [.rng 'Α' 'Α', .rng 'α' 'α'], .cls false [.rng 'Π' 'Π', .rng 'π' 'π', .rng 'ϖ' 'ϖ'], .cls false [.rng 'Ο' 'Ο', .rng 'ο' 'ο'], .lit [' '], .number, .lit [' '], .cls false [.rng 'Ω' 'Ω', .rng 'ω' 'ω', .rng 'Ω' 'Ω'], .cls false [.rng 'Ρ' 'Ρ', .rng 'ρ' 'ρ', .rng 'ϱ' 'ϱ'], .cls false [.rng 'Α' 'Α', .rng 'α' 'α']], .seqs [.cls false [.rng 'Σ' 'Σ', .rng 'ς' 'ς', .rng 'σ' 'σ'], .cls false [.rng 'Ε' 'Ε', .rng 'ε' 'ε', .rng 'ϵ' 'ϵ'], .lit [' '], .number, .lit [' '], .cls false [.rng 'Ε' 'Ε', .rng 'ε' 'ε', .rng 'ϵ' 'ϵ'], .cls false [.rng 'Β' 'Β', .rng 'β' 'β', .rng 'ϐ' 'ϐ'], .cls false [.rng 'Δ' 'Δ', .rng 'δ' 'δ'], .cls false [.rng 'Ο' 'Ο', .rng 'ο' 'ο'], .cls false [.rng 'µ' 'µ', .rng 'Μ' 'Μ', .rng 'μ' 'μ'], .cls false [.rng 'Α' 'Α', .rng 'α' 'α'], .cls false [.rng 'Δ' 'Δ', .rng 'δ' 'δ'], .cls false [.rng 'Ε' 'Ε', .rng 'ε' 'ε', .rng 'ϵ' 'ϵ'], .cls false [.rng 'Σ' 'Σ', .rng 'ς' 'ς', .rng 'σ' 'σ']], .seqs [.cls false [.rng 'Π' 'Π', .rng 'π' 'π', .rng 'ϖ' 'ϖ'], .cls false [.rng 'Ρ' 'Ρ', .rng 'ρ' 'ρ', .rng 'ϱ' 'ϱ'], .cls false [.rng (Char.ofNat 0x345) (Char.ofNat 0x345), .rng 'Ι' 'Ι', .rng 'ι' 'ι', .rng 'ι' 'ι'], .cls false [.rng 'Ν' 'Ν', .rng 'ν' 'ν'], .lit [' '], .cls false [.rng 'Α' 'Α', .rng 'α' 'α'], .cls false [.rng 'Π' 'Π', .rng 'π' 'π', .rng 'ϖ' 'ϖ'], .cls false [.rng 'Ο' 'Ο', .rng 'ο' 'ο'], .lit [' '], .number, .lit [' '], .cls false [.rng 'Ω' 'Ω', .rng 'ω' 'ω', .rng 'Ω' 'Ω'], .cls false [.rng 'Ρ' 'Ρ', .rng 'ρ' 'ρ', .rng 'ϱ' 'ϱ']], .seqs [.cls false [.rng 'Σ' 'Σ', .rng 'ς' 'ς', .rng 'σ' 'σ'], .cls false [.rng 'Ε' 'Ε', .rng 'ε' 'ε', .rng 'ϵ' 'ϵ'], .lit [' '], .number, .lit [' '], .cls false [.rng 'Ε' 'Ε', .rng 'ε' 'ε', .rng 'ϵ' 'ϵ'], .cls false [.rng 'Β' 'Β', .rng 'β' 'β', .rng 'ϐ' 'ϐ'], .cls false [.rng 'Δ' 'Δ', .rng 'δ' 'δ'], .cls false [.rng 'Ο' 'Ο', .rng 'ο' 'ο'], .cls false [.rng 'µ' 'µ', .rng 'Μ' 'Μ', .rng 'μ' 'μ'], .cls false [.rng 'Α' 'Α', .rng 'α' 'α'], .cls false [.rng 'Δ' 'Δ', .rng 'δ' 'δ'], .cls false [.rng 'Α' 'Α', .rng 'α' 'α']], .seqs [.number, .lit [' '], .cls false [.rng 'Ε' 'Ε', .rng 'ε' 'ε', .rng 'ϵ' 'ϵ'], .cls false [.rng 'Τ' 'Τ', .rng 'τ' 'τ'], .cls false [.rng 'Ο' 'Ο', .rng 'ο' 'ο'], .cls false [.rng 'Σ' 'Σ', .rng 'ς' 'ς', .rng 'σ' 'σ'], .lit [' '], .cls false [.rng 'Π' 'Π', .rng 'π' 'π', .rng 'ϖ' 'ϖ'], .cls false [.rng 'Ρ' 'Ρ', .rng 'ρ' 'ρ', .rng 'ϱ' 'ϱ'], .cls false [.rng (Char.ofNat 0x345) (Char.ofNat 0x345), .rng 'Ι' 'Ι', .rng 'ι' 'ι', .rng 'ι' 'ι'], .cls false [.rng 'Ν' 'Ν', .rng 'ν' 'ν']], .seqs [.cls false [.rng 'Σ' 'Σ', .rng 'ς' 'ς', .rng 'σ' 'σ'], .cls false [.rng 'Ε' 'Ε', .rng 'ε' 'ε', .rng 'ϵ' 'ϵ'], .lit [' '], .number, .lit [' '], .cls false [.rng 'Η' 'Η', .rng 'η' 'η'], .cls false [.rng 'µ' 'µ', .rng 'Μ' 'Μ', .rng 'μ' 'μ'], .cls false [.rng 'Ε' 'Ε', .rng 'ε' 'ε', .rng 'ϵ' 'ϵ'], .cls false [.rng 'Ρ' 'Ρ', .rng 'ρ' 'ρ', .rng 'ϱ' 'ϱ'], .cls false [.rng 'Ε' 'Ε', .rng 'ε' 'ε', .rng 'ϵ' 'ϵ'], .cls false [.rng 'Σ' 'Σ', .rng 'ς' 'ς', .rng 'σ' 'σ']], .seqs [.number, .lit [' '], .cls false [.rng 'Ε' 'Ε', .rng 'ε' 'ε', .rng 'ϵ' 'ϵ'], .cls false [.rng 'Β' 'Β', .rng 'β' 'β', .rng 'ϐ' 'ϐ'], .cls false [.rng 'Δ' 'Δ', .rng 'δ' 'δ'], .lit [' '], .cls false [.rng 'Π' 'Π', .rng 'π' 'π', .rng 'ϖ' 'ϖ'], .cls false [.rng 'Ρ' 'Ρ', .rng 'ρ' 'ρ', .rng 'ϱ' 'ϱ'], .cls false [.rng (Char.ofNat 0x345) (Char.ofNat 0x345), .rng 'Ι' 'Ι', .rng 'ι' 'ι', .rng 'ι' 'ι'], .cls false [.rng 'Ν' 'Ν', .rng 'ν' 'ν']], .seqs [.number, .lit [' '], .cls false [.rng 'Ε' 'Ε', .rng 'ε' 'ε', .rng 'ϵ' 'ϵ'], .cls false [.rng 'Τ' 'Τ', .rng 'τ' 'τ'], .cls false [.rng 'Η' 'Η', .rng 'η' 'η'], .lit [' '], .cls false [.rng 'Π' 'Π', .rng 'π' 'π', .rng 'ϖ' 'ϖ'], .cls false [.rng 'Ρ' 'Ρ', .rng 'ρ' 'ρ', .rng 'ϱ' 'ϱ'], .cls false [.rng (Char.ofNat 0x345) (Char.ofNat 0x345), .rng 'Ι' 'Ι', .rng 'ι' 'ι', .rng 'ι' 'ι'], .cls false [.rng 'Ν' 'Ν', .rng 'ν' 'ν']], .seqs [.cls false [.rng 'Σ' 'Σ', .rng 'ς' 'ς', .rng 'σ' 'σ'], .cls false [.rng 'Ε' 'Ε', .rng 'ε' 'ε', .rng 'ϵ' 'ϵ'], .lit [' '], .number, .lit [' '], .cls false [.rng 'Η' 'Η', .rng 'η' 'η'], .cls false [.rng 'µ' 'µ', .rng 'Μ' 'Μ', .rng 'μ' 'μ'], .cls false [.rng 'Ε' 'Ε', .rng 'ε' 'ε', .rng 'ϵ' 'ϵ'], .cls false [.rng 'Ρ' 'Ρ', .rng 'ρ' 'ρ', .rng 'ϱ' 'ϱ'], .cls false [.rng 'Α' 'Α', .rng 'α' 'α']], .seqs [.cls false [.rng 'Σ' 'Σ', .rng 'ς' 'ς', .rng 'σ' 'σ'], .cls false [.rng 'Ε' 'Ε', .rng 'ε' 'ε', .rng 'ϵ' 'ϵ'], .lit [' '], .number, .lit [' '], .cls false [.rng 'Λ' 'Λ', .rng 'λ' 'λ'], .cls false [.rng 'Ε' 'Ε', .rng 'ε' 'ε', .rng 'ϵ' 'ϵ'], .cls false [.rng 'Π' 'Π', .rng 'π' 'π', .rng 'ϖ' 'ϖ'], .cls false [.rng 'Τ' 'Τ', .rng 'τ' 'τ'], .cls false [.rng 'Α' 'Α', .rng 'α' 'α']], .seqs [.cls false [.rng 'Σ' 'Σ', .rng 'ς' 'ς', .rng 'σ' 'σ'], .cls false [.rng 'Ε' 'Ε', .rng 'ε' 'ε', .rng 'ϵ' 'ϵ'], .lit [' '], .number, .lit [' '], .cls false [.rng 'Λ' 'Λ', .rng 'λ' 'λ'], .cls false [.rng 'Ε' 'Ε', .rng 'ε' 'ε', .rng 'ϵ' 'ϵ'], .cls false [.rng 'Π' 'Π', .rng 'π' 'π', .rng 'ϖ' 'ϖ'], .cls false [.rng 'Τ' 'Τ', .rng 'τ' 'τ'], .cls false [.rng 'Ο' 'Ο', .rng 'ο' 'ο']], .seqs [.cls false [.rng 'Σ' 'Σ', .rng 'ς' 'ς', .rng 'σ' 'σ'], .cls false [.rng 'Ε' 'Ε', .rng 'ε' 'ε', .rng 'ϵ' 'ϵ'], .lit [' '], .number, .lit [' '], .cls false [.rng 'µ' 'µ', .rng 'Μ' 'Μ', .rng 'μ' 'μ'], .cls false [.rng 'Η' 'Η', .rng 'η' 'η'], .cls false [.rng 'Ν' 'Ν', .rng 'ν' 'ν'], .cls false [.rng 'Ε' 'Ε', .rng 'ε' 'ε', .rng 'ϵ' 'ϵ'], .cls false [.rng 'Σ' 'Σ', .rng 'ς' 'ς', .rng 'σ' 'σ']], .seqs [.number, .lit [' '], .cls false [.rng 'Η' 'Η', .rng 'η' 'η'], .cls false [.rng 'µ' 'µ', .rng 'Μ' 'Μ', .rng 'μ' 'μ'], .lit [' '], .cls false [.rng 'Π' 'Π', .rng 'π' 'π', .rng 'ϖ' 'ϖ'], .cls false [.rng 'Ρ' 'Ρ', .rng 'ρ' 'ρ', .rng 'ϱ' 'ϱ'], .cls false [.rng (Char.ofNat 0x345) (Char.ofNat 0x345), .rng 'Ι' 'Ι', .rng 'ι' 'ι', .rng 'ι' 'ι'], .cls false [.rng 'Ν' 'Ν', .rng 'ν' 'ν']], .seqs [.cls false [.rng 'Σ' 'Σ', .rng 'ς' 'ς', .rng 'σ' 'σ'], .cls false [.rng 'Ε' 'Ε', .rng 'ε' 'ε', .rng 'ϵ' 'ϵ'], .lit [' '], .number, .lit [' '], .cls false [.rng 'Δ' 'Δ', .rng 'δ' 'δ'], .cls false [.rng 'Ε' 'Ε', .rng 'ε' 'ε', .rng 'ϵ' 'ϵ'], .cls false [.rng 'Υ' 'Υ', .rng 'υ' 'υ'], .cls false [.rng 'Τ' 'Τ', .rng 'τ' 'τ']], .seqs [.cls false [.rng 'Σ' 'Σ', .rng 'ς' 'ς', .rng 'σ' 'σ'], .cls false [.rng 'Ε' 'Ε', .rng 'ε' 'ε', .rng 'ϵ' 'ϵ'], .lit [' '], .number, .lit [' '], .cls false [.rng 'Ε' 'Ε', .rng 'ε' 'ε', .rng 'ϵ' 'ϵ'], .cls false [.rng 'Τ' 'Τ', .rng 'τ' 'τ'], .cls false [.rng 'Ο' 'Ο', .rng 'ο' 'ο'], .cls false [.rng 'Σ' 'Σ', .rng 'ς' 'ς', .rng 'σ' 'σ']], .seqs [.cls false [.rng 'Σ' 'Σ', .rng 'ς' 'ς', .rng 'σ' 'σ'], .cls false [.rng 'Ε' 'Ε', .rng 'ε' 'ε', .rng 'ϵ' 'ϵ'], .lit [' '], .number, .lit [' '], .cls false [.rng 'µ' 'µ', .rng 'Μ' 'Μ', .rng 'μ' 'μ'], .cls false [.rng 'Η' 'Η', .rng 'η' 'η'], .cls false [.rng 'Ν' 'Ν', .rng 'ν' 'ν'], .cls false [.rng 'Α' 'Α', .rng 'α' 'α']], .seqs [.cls false [.rng 'Σ' 'Σ', .rng 'ς' 'ς', .rng 'σ' 'σ'], .cls false [.rng 'Ε' 'Ε', .rng 'ε' 'ε', .rng 'ϵ' 'ϵ'], .lit [' '], .number, .lit [' '], .cls false [.rng 'Ω' 'Ω', .rng 'ω' 'ω', .rng 'Ω' 'Ω'], .cls false [.rng 'Ρ' 'Ρ', .rng 'ρ' 'ρ', .rng 'ϱ' 'ϱ'], .cls false [.rng 'Ε' 'Ε', .rng 'ε' 'ε', .rng 'ϵ' 'ϵ'], .cls false [.rng 'Σ' 'Σ', .rng 'ς' 'ς', .rng 'σ' 'σ']], .seqs [.number, .lit [' '], .cls false [.rng 'Δ' 'Δ', .rng 'δ' 'δ'], .lit [' '], .cls false [.rng 'Π' 'Π', .rng 'π' 'π', .rng 'ϖ' 'ϖ'], .cls false [.rng 'Ρ' 'Ρ', .rng 'ρ' 'ρ', .rng 'ϱ' 'ϱ'], .cls false [.rng (Char.ofNat 0x345) (Char.ofNat 0x345), .rng 'Ι' 'Ι', .rng 'ι' 'ι', .rng 'ι' 'ι'], .cls false [.rng 'Ν' 'Ν', .rng 'ν' 'ν']], .seqs [.number, .lit [' '], .cls false [.rng 'Λ' 'Λ', .rng 'λ' 'λ'], .lit [' '], .cls false [.rng 'Π' 'Π', .rng 'π' 'π', .rng 'ϖ' 'ϖ'], .cls false [.rng 'Ρ' 'Ρ', .rng 'ρ' 'ρ', .rng 'ϱ' 'ϱ'], .cls false [.rng (Char.ofNat 0x345) (Char.ofNat 0x345), .rng 'Ι' 'Ι', .rng 'ι' 'ι', .rng 'ι' 'ι'], .cls false [.rng 'Ν' 'Ν', .rng 'ν' 'ν']], .seqs [.number, .lit [' '], .cls false [.rng 'µ' 'µ', .rng 'Μ' 'Μ', .rng 'μ' 'μ'], .lit [' '], .cls false [.rng 'Π' 'Π', .rng 'π' 'π', .rng 'ϖ' 'ϖ'], .cls false [.rng 'Ρ' 'Ρ', .rng 'ρ' 'ρ', .rng 'ϱ' 'ϱ'], .cls false [.rng (Char.ofNat 0x345) (Char.ofNat 0x345), .rng 'Ι' 'Ι', .rng 'ι' 'ι', .rng 'ι' 'ι'], .cls false [.rng 'Ν' 'Ν', .rng 'ν' 'ν']], .seqs [.number, .lit [' '], .cls false [.rng 'Ω' 'Ω', .rng 'ω' 'ω', .rng 'Ω' 'Ω'], .lit [' '], .cls false [.rng 'Π' 'Π', .rng 'π' 'π', .rng 'ϖ' 'ϖ'], .cls false [.rng 'Ρ' 'Ρ', .rng 'ρ' 'ρ', .rng 'ϱ' 'ϱ'], .cls false [.rng (Char.ofNat 0x345) (Char.ofNat 0x345), .rng 'Ι' 'Ι', .rng 'ι' 'ι', .rng 'ι' 'ι'], .cls false [.rng 'Ν' 'Ν', .rng 'ν' 'ν']], .seqs [.cls false [.rng 'Σ' 'Σ', .rng 'ς' 'ς', .rng 'σ' 'σ'], .cls false [.rng 'Ε' 'Ε', .rng 'ε' 'ε', .rng 'ϵ' 'ϵ'], .lit [' '], .number, .lit [' '], .cls false [.rng 'Ε' 'Ε', .rng 'ε' 'ε', .rng 'ϵ' 'ϵ'], .cls false [.rng 'Β' 'Β', .rng 'β' 'β', .rng 'ϐ' 'ϐ'], .cls false [.rng 'Δ' 'Δ', .rng 'δ' 'δ']], .seqs [.cls false [.rng 'Σ' 'Σ', .rng 'ς' 'ς', .rng 'σ' 'σ'], .cls false [.rng 'Ε' 'Ε', .rng 'ε' 'ε', .rng 'ϵ' 'ϵ'], .lit [' '], .number, .lit [' '], .cls false [.rng 'Ε' 'Ε', .rng 'ε' 'ε', .rng 'ϵ' 'ϵ'], .cls false [.rng 'Τ' 'Τ', .rng 'τ' 'τ'], .cls false [.rng 'Η' 'Η', .rng 'η' 'η']], .seqs [.cls false [.rng 'Σ' 'Σ', .rng 'ς' 'ς', .rng 'σ' 'σ'], .cls false [.rng 'Ε' 'Ε', .rng 'ε' 'ε', .rng 'ϵ' 'ϵ'], .lit [' '], .number, .lit [' '], .cls false [.rng 'Λ' 'Λ', .rng 'λ' 'λ'], .cls false [.rng 'Ε' 'Ε', .rng 'ε' 'ε', .rng 'ϵ' 'ϵ'], .cls false [.rng 'Π' 'Π', .rng 'π' 'π', .rng 'ϖ' 'ϖ']], .seqs [.cls false [.rng 'Σ' 'Σ', .rng 'ς' 'ς', .rng 'σ' 'σ'], .cls false [.rng 'Ε' 'Ε', .rng 'ε' 'ε', .rng 'ϵ' 'ϵ'], .lit [' '], .number, .lit [' '], .cls false [.rng 'Ω' 'Ω', .rng 'ω' 'ω', .rng 'Ω' 'Ω'], .cls false [.rng 'Ρ' 'Ρ', .rng 'ρ' 'ρ', .rng 'ϱ' 'ϱ'], .cls false [.rng 'Α' 'Α', .rng 'α' 'α']], .seqs [.cls false [.rng 'Σ' 'Σ', .rng 'ς' 'ς', .rng 'σ' 'σ'], .cls false [.rng 'Ε' 'Ε', .rng 'ε' 'ε', .rng 'ϵ' 'ϵ'], .lit [' '], .number, .lit [' '], .cls false [.rng 'Η' 'Η', .rng 'η' 'η'], .cls false [.rng 'µ' 'µ', .rng 'Μ' 'Μ', .rng 'μ' 'μ']], .seqs [.cls false [.rng 'Σ' 'Σ', .rng 'ς' 'ς', .rng 'σ' 'σ'], .cls false [.rng 'Ε' 'Ε', .rng 'ε' 'ε', .rng 'ϵ' 'ϵ'], .lit [' '], .number, .lit [' '], .cls false [.rng 'Ω' 'Ω', .rng 'ω' 'ω', .rng 'Ω' 'Ω'], .cls false [.rng 'Ρ' 'Ρ', .rng 'ρ' 'ρ', .rng 'ϱ' 'ϱ']], .seqs [.cls false [.rng 'Σ' 'Σ', .rng 'ς' 'ς', .rng 'σ' 'σ'], .cls false [.rng 'Ε' 'Ε', .rng 'ε' 'ε', .rng 'ϵ' 'ϵ'], .lit [' '], .number, .lit [' '], .cls false [.rng 'Δ' 'Δ', .rng 'δ' 'δ']], .seqs [.cls false [.rng 'Σ' 'Σ', .rng 'ς' 'ς', .rng 'σ' 'σ'], .cls false [.rng 'Ε' 'Ε', .rng 'ε' 'ε', .rng 'ϵ' 'ϵ'], .lit [' '], .number, .lit [' '], .cls false [.rng 'Λ' 'Λ', .rng 'λ' 'λ']], .seqs [.cls false [.rng 'Σ' 'Σ', .rng 'ς' 'ς', .rng 'σ' 'σ'], .cls false [.rng 'Ε' 'Ε', .rng 'ε' 'ε', .rng 'ϵ' 'ϵ'], .lit [' '], .number, .lit [' '], .cls false [.rng 'µ' 'µ', .rng 'Μ' 'Μ', .rng 'μ' 'μ']], .seqs [.cls false [.rng 'Σ' 'Σ', .rng 'ς' 'ς', .rng 'σ' 'σ'], .cls false [.rng 'Ε' 'Ε', .rng 'ε' 'ε', .rng 'ϵ' 'ϵ'], .lit [' '], .number, .lit [' '], .cls false [.rng 'Ω' 'Ω', .rng 'ω' 'ω', .rng 'Ω' 'Ω']]]), .grp 3 (.alts [.eos, .cls true [.letter, .mark, .digit], .lit ['_']])], 3),
  rxExact := some (.seqs [.bos, .grp 1 (.alts [.seqs [.cls false [.rng 'Π' 'Π', .rng 'π' 'π', .rng 'ϖ' 'ϖ'], .cls false [.rng 'Ρ' 'Ρ', .rng 'ρ' 'ρ', .rng 'ϱ' 'ϱ'], .cls false [.rng (Char.ofNat 0x345) (Char.ofNat 0x345), .rng 'Ι' 'Ι', .rng 'ι' 'ι', .rng 'ι' 'ι'], .cls false [.rng 'Ν' 'Ν', .rng 'ν' 'ν'], .lit [' '], .cls false [.rng 'Α' 'Α', .rng 'α' 'α'], .cls false [.rng 'Π' 'Π', .rng 'π' 'π', .rng 'ϖ' 'ϖ'], .cls false [.rng 'Ο' 'Ο', .rng 'ο' 'ο'], .lit [' '], .number, .lit [' '], .cls false [.rng 'Δ' 'Δ', .rng 'δ' 'δ'], .cls false [.rng 'Ε' 'Ε', .rng 'ε' 'ε', .rng 'ϵ' 'ϵ'], .cls false [.rng 'Υ' 'Υ', .rng 'υ' 'υ'], .cls false [.rng 'Τ' 'Τ', .rng 'τ' 'τ'], .cls false [.rng 'Ε' 'Ε', .rng 'ε' 'ε', .rng 'ϵ' 'ϵ'], .cls false [.rng 'Ρ' 'Ρ', .rng 'ρ' 'ρ', .rng 'ϱ' 'ϱ'], .cls false [.rng 'Ο' 'Ο', .rng 'ο' 'ο'], .cls false [.rng 'Λ' 'Λ', .rng 'λ' 'λ'], .cls false [.rng 'Ε' 'Ε', .rng 'ε' 'ε', .rng 'ϵ' 'ϵ'], .cls false [.rng 'Π' 'Π', .rng 'π' 'π', .rng 'ϖ' 'ϖ'], .cls false [.rng 'Τ' 'Τ', .rng 'τ' 'τ'], .cls false [.rng 'Α' 'Α', .rng 'α' 'α']], .seqs [.cls false [.rng 'Π' 'Π', .rng 'π' 'π', .rng 'ϖ' 'ϖ'], .cls false [.rng 'Ρ' 'Ρ', .rng 'ρ' 'ρ', .rng 'ϱ' 'ϱ'], .cls false [.rng (Char.ofNat 0x345) (Char.ofNat 0x345), .rng 'Ι' 'Ι', .rng 'ι' 'ι', .rng 'ι' 'ι'], .cls false [.rng 'Ν' 'Ν', .rng 'ν' 'ν'], .lit [' '], .cls false [.rng 'Α' 'Α', .rng 'α' 'α'], .cls false [.rng 'Π' 'Π', .rng 'π' 'π', .rng 'ϖ' 'ϖ'], .cls false [.rng 'Ο' 'Ο', .rng 'ο' 'ο'], .lit [' '], .number, .lit [' '], .cls false [.rng 'Δ' 'Δ', .rng 'δ' 'δ'], .cls false [.rng 'Ε' 'Ε', .rng 'ε' 'ε', .rng 'ϵ' 'ϵ'], .cls false [.rng 'Υ' 'Υ', .rng 'υ' 'υ'], .cls false [.rng 'Τ' 'Τ', .rng 'τ' 'τ'], .cls false [.rng 'Ε' 'Ε', .rng 'ε' 'ε', .rng 'ϵ' 'ϵ'], .cls false [.rng 'Ρ' 'Ρ', .rng 'ρ' 'ρ', .rng 'ϱ' 'ϱ'], .cls false [.rng 'Ο' 'Ο', .rng 'ο' 'ο'], .cls false [.rng 'Λ' 'Λ', .rng 'λ' 'λ'], .cls false [.rng 'Ε' 'Ε', .rng 'ε' 'ε', .rng 'ϵ' 'ϵ'], .cls false [.rng 'Π' 'Π', .rng 'π' 'π', .rng 'ϖ' 'ϖ'], .cls false [.rng 'Τ' 'Τ', .rng 'τ' 'τ'], .cls false [.rng 'Ο' 'Ο', .rng 'ο' 'ο']], .seqs [.cls false [.rng 'Π' 'Π', .rng 'π' 'π', .rng 'ϖ' 'ϖ'], .cls false [.rng 'Ρ' 'Ρ', .rng 'ρ' 'ρ', .rng 'ϱ' 'ϱ'], .cls false [.rng (Char.ofNat 0x345) (Char.ofNat 0x345), .rng 'Ι' 'Ι', .rng 'ι' 'ι', .rng 'ι' 'ι'], .cls false [.rng 'Ν' 'Ν', .rng 'ν' 'ν'], .lit [' '], .cls false [.rng 'Α' 'Α', .rng 'α' 'α'], .cls false [.rng 'Π' 'Π', .rng 'π' 'π', .rng 'ϖ' 'ϖ'], .cls false [.rng 'Ο' 'Ο', .rng 'ο' 'ο'], .lit [' '], .number, .lit [' '], .cls false [.rng 'Ε' 'Ε', .rng 'ε' 'ε', .rng 'ϵ' 'ϵ'], .cls false [.rng 'Β' 'Β', .rng 'β' 'β', .rng 'ϐ' 'ϐ'], .cls false [.rng 'Δ' 'Δ', .rng 'δ' 'δ'], .cls false [.rng 'Ο' 'Ο', .rng 'ο' 'ο'], .cls false [.rng 'µ' 'µ', .rng 'Μ' 'Μ', .rng 'μ' 'μ'], .cls false [.rng 'Α' 'Α', .rng 'α' 'α'], .cls false [.rng 'Δ' 'Δ', .rng 'δ' 'δ'], .cls false [.rng 'Ε' 'Ε', .rng 'ε' 'ε', .rng 'ϵ' 'ϵ'], .cls false [.rng 'Σ' 'Σ', .rng 'ς' 'ς', .rng 'σ' 'σ']], .seqs [.cls false [.rng 'Π' 'Π', .rng 'π' 'π', .rng 'ϖ' 'ϖ'], .cls false [.rng 'Ρ' 'Ρ', .rng 'ρ' 'ρ', .rng 'ϱ' 'ϱ'], .cls false [.rng (Char.ofNat 0x345) (Char.ofNat 0x345), .rng 'Ι' 'Ι', .rng 'ι' 'ι', .rng 'ι' 'ι'], .cls false [.rng 'Ν' 'Ν', .rng 'ν' 'ν'], .lit [' '], .cls false [.rng 'Α' 'Α', .rng 'α' 'α'], .cls false [.rng 'Π' 'Π', .rng 'π' 'π', .rng 'ϖ' 'ϖ'], .cls false [.rng 'Ο' 'Ο', .rng 'ο' 'ο'], .lit [' '], .number, .lit [' '], .cls false [.rng 'Ε' 'Ε', .rng 'ε' 'ε', .rng 'ϵ' 'ϵ'], .cls false [.rng 'Β' 'Β', .rng 'β' 'β', .rng 'ϐ' 'ϐ'], .cls false [.rng 'Δ' 'Δ', .rng 'δ' 'δ'], .cls false [.rng 'Ο' 'Ο', .rng 'ο' 'ο'], .cls false [.rng 'µ' 'µ', .rng 'Μ' 'Μ', .rng 'μ' 'μ'], .cls false [.rng 'Α' 'Α', .rng 'α' 'α'], .cls false [.rng 'Δ' 'Δ', .rng 'δ' 'δ'], .cls false [.rng 'Α' 'Α', .rng 'α' 'α']], .seqs [.cls false [.rng 'Π' 'Π', .rng 'π' 'π', .rng 'ϖ' 'ϖ'], .cls false [.rng 'Ρ' 'Ρ', .rng 'ρ' 'ρ', .rng 'ϱ' 'ϱ'], .cls false [.rng (Char.ofNat 0x345) (Char.ofNat 0x345), .rng 'Ι' 'Ι', .rng 'ι' 'ι', .rng 'ι' 'ι'], .cls false [.rng 'Ν' 'Ν', .rng 'ν' 'ν'], .lit [' '], .cls false [.rng 'Α' 'Α', .rng 'α' 'α'], .cls false [.rng 'Π' 'Π', .rng 'π' 'π', .rng 'ϖ' 'ϖ'], .cls false [.rng 'Ο' 'Ο', .rng 'ο' 'ο'], .lit [' '], .number, .lit [' '], .cls false [.rng 'Η' 'Η', .rng 'η' 'η'], .cls false [.rng 'µ' 'µ', .rng 'Μ' 'Μ', .rng 'μ' 'μ'], .cls false [.rng 'Ε' 'Ε', .rng 'ε' 'ε', .rng 'ϵ' 'ϵ'], .cls false [.rng 'Ρ' 'Ρ', .rng 'ρ' 'ρ', .rng 'ϱ' 'ϱ'], .cls false [.rng 'Ε' 'Ε', .rng 'ε' 'ε', .rng 'ϵ' 'ϵ'], .cls false [.rng 'Σ' 'Σ', .rng 'ς' 'ς', .rng 'σ' 'σ']], .seqs [.cls false [.rng 'Σ' 'Σ', .rng 'ς' 'ς', .rng 'σ' 'σ'], .cls false [.rng 'Ε' 'Ε', .rng 'ε' 'ε', .rng 'ϵ' 'ϵ'], .lit [' '], .number, .lit [' '], .cls false [.rng 'Δ' 'Δ', .rng 'δ' 'δ'], .cls false [.rng 'Ε' 'Ε', .rng 'ε' 'ε', .rng 'ϵ' 'ϵ'], .cls false [.rng 'Υ' 'Υ', .rng 'υ' 'υ'], .cls false [.rng 'Τ' 'Τ', .rng 'τ' 'τ'], .cls false [.rng 'Ε' 'Ε', .rng 'ε' 'ε', .rng 'ϵ' 'ϵ'], .cls false [.rng 'Ρ' 'Ρ', .rng 'ρ' 'ρ', .rng 'ϱ' 'ϱ'], .cls false [.rng 'Ο' 'Ο', .rng 'ο' 'ο'], .cls false [.rng 'Λ' 'Λ', .rng 'λ' 'λ'], .cls false [.rng 'Ε' 'Ε', .rng 'ε' 'ε', .rng 'ϵ' 'ϵ'], .cls false [.rng 'Π' 'Π', .rng 'π' 'π', .rng 'ϖ' 'ϖ'], .cls false [.rng 'Τ' 'Τ', .rng 'τ' 'τ'], .cls false [.rng 'Α' 'Α', .rng 'α' 'α']], .seqs [.cls false [.rng 'Σ' 'Σ', .rng 'ς' 'ς', .rng 'σ' 'σ'], .cls false [.rng 'Ε' 'Ε', .rng 'ε' 'ε', .rng 'ϵ' 'ϵ'], .lit [' '], .number, .lit [' '], .cls false [.rng 'Δ' 'Δ', .rng 'δ' 'δ'], .cls false [.rng 'Ε' 'Ε', .rng 'ε' 'ε', .rng 'ϵ' 'ϵ'], .cls false [.rng 'Υ' 'Υ', .rng 'υ' 'υ'], .cls false [.rng 'Τ' 'Τ', .rng 'τ' 'τ'], .cls false [.rng 'Ε' 'Ε', .rng 'ε' 'ε', .rng 'ϵ' 'ϵ'], .cls false [.rng 'Ρ' 'Ρ', .rng 'ρ' 'ρ', .rng 'ϱ' 'ϱ'], .cls false [.rng 'Ο' 'Ο', .rng 'ο' 'ο'], .cls false [.rng 'Λ' 'Λ', .rng 'λ' 'λ'], .cls false [.rng 'Ε' 'Ε', .rng 'ε' 'ε', .rng 'ϵ' 'ϵ'], .cls false [.rng 'Π' 'Π', .rng 'π' 'π', .rng 'ϖ' 'ϖ'], .cls false [.rng 'Τ' 'Τ', .rng 'τ' 'τ'], .cls false [.rng 'Ο' 'Ο', .rng 'ο' 'ο']], .seqs [.cls false [.rng 'Π' 'Π', .rng 'π' 'π', .rng 'ϖ' 'ϖ'], .cls false [.rng 'Ρ' 'Ρ', .rng 'ρ' 'ρ', .rng 'ϱ' 'ϱ'], .cls false [.rng (Char.ofNat 0x345) (Char.ofNat 0x345), .rng 'Ι' 'Ι', .rng 'ι' 'ι', .rng 'ι' 'ι'], .cls false [.rng 'Ν' 'Ν', .rng 'ν' 'ν'], .lit [' '], .cls false [.rng 'Α' 'Α', .rng 'α' 'α'], .cls false [.rng 'Π' 'Π', .rng 'π' 'π', .rng 'ϖ' 'ϖ'], .cls false [.rng 'Ο' 'Ο', .rng 'ο' 'ο'], .lit [' '], .number, .lit [' '], .cls false [.rng 'Η' 'Η', .rng 'η' 'η'], .cls false [.rng 'µ' 'µ', .rng 'Μ' 'Μ', .rng 'μ' 'μ'], .cls false [.rng 'Ε' 'Ε', .rng 'ε' 'ε', .rng 'ϵ' 'ϵ'], .cls false [.rng 'Ρ' 'Ρ', .rng 'ρ' 'ρ', .rng 'ϱ' 'ϱ'], .cls false [.rng 'Α' 'Α', .rng 'α' 'α']], .seqs [.cls false [.rng 'Π' 'Π', .rng 'π' 'π', .rng 'ϖ' 'ϖ'], .cls false [.rng 'Ρ' 'Ρ', .rng 'ρ' 'ρ', .rng 'ϱ' 'ϱ'], .cls false [.rng (Char.ofNat 0x345) (Char.ofNat 0x345), .rng 'Ι' 'Ι', .rng 'ι' 'ι', .rng 'ι' 'ι'], .cls false [.rng 'Ν' 'Ν', .rng 'ν' 'ν'], .lit [' '], .cls false [.rng 'Α' 'Α', .rng 'α' 'α'], .cls false [.rng 'Π' 'Π', .rng 'π' 'π', .rng 'ϖ' 'ϖ'], .cls false [.rng 'Ο' 'Ο', .rng 'ο' 'ο'], .lit [' '], .number, .lit [' '], .cls false [.rng 'Λ' 'Λ', .rng 'λ' 'λ'], .cls false [.rng 'Ε' 'Ε', .rng 'ε' 'ε', .rng 'ϵ' 'ϵ'], .cls false [.rng 'Π' 'Π', .rng 'π' 'π', .rng 'ϖ' 'ϖ'], .cls false [.rng 'Τ' 'Τ', .rng 'τ' 'τ'], .cls false [.rng 'Α' 'Α', .rng 'α' 'α']], .seqs [.cls false [.rng 'Π' 'Π', .rng 'π' 'π', .rng 'ϖ' 'ϖ'], .cls false [.rng 'Ρ' 'Ρ', .rng 'ρ' 'ρ', .rng 'ϱ' 'ϱ'], .cls false [.rng (Char.ofNat 0x345) (Char.ofNat 0x345), .rng 'Ι' 'Ι', .rng 'ι' 'ι', .rng 'ι' 'ι'], .cls false [.rng 'Ν' 'Ν', .rng 'ν' 'ν'], .lit [' '], .cls false [.rng 'Α' 'Α', .rng 'α' 'α'], .cls false [.rng 'Π' 'Π', .rng 'π' 'π', .rng 'ϖ' 'ϖ'], .cls false [.rng 'Ο' 'Ο', .rng 'ο' 'ο'], .lit [' '], .number, .lit [' '], .cls false [.rng 'Λ' 'Λ', .rng 'λ' 'λ'], .cls false [.rng 'Ε' 'Ε', .rng 'ε' 'ε', .rng 'ϵ' 'ϵ'], .cls false [.rng 'Π' 'Π', .rng 'π' 'π', .rng 'ϖ' 'ϖ'], .cls false [.rng 'Τ' 'Τ', .rng 'τ' 'τ'], .cls false [.rng 'Ο' 'Ο', .rng 'ο' 'ο']], .seqs [.cls false [.rng 'Π' 'Π', .rng 'π' 'π', .rng 'ϖ' 'ϖ'], .cls false [.rng 'Ρ' 'Ρ', .rng 'ρ' 'ρ', .rng 'ϱ' 'ϱ'], .cls false [.rng (Char.ofNat 0x345) (Char.ofNat 0x345), .rng 'Ι' 'Ι', .rng 'ι' 'ι', .rng 'ι' 'ι'], .cls false [.rng 'Ν' 'Ν', .rng 'ν' 'ν'], .lit [' '], .cls false [.rng 'Α' 'Α', .rng 'α' 'α'], .cls false [.rng 'Π' 'Π', .rng 'π' 'π', .rng 'ϖ' 'ϖ'], .cls false [.rng 'Ο' 'Ο', .rng 'ο' 'ο'], .lit [' '], .number, .lit [' '], .cls false [.rng 'µ' 'µ', .rng 'Μ' 'Μ', .rng 'μ' 'μ'], .cls false [.rng 'Η' 'Η', .rng 'η' 'η'], .cls false [.rng 'Ν' 'Ν', .rng 'ν' 'ν'], .cls false [.rng 'Ε' 'Ε', .rng 'ε' 'ε', .rng 'ϵ' 'ϵ'], .cls false [.rng 'Σ' 'Σ', .rng 'ς' 'ς', .rng 'σ' 'σ']], .seqs [.cls false [.rng 'Π' 'Π', .rng 'π' 'π', .rng 'ϖ' 'ϖ'], .cls false [.rng 'Ρ' 'Ρ', .rng 'ρ' 'ρ', .rng 'ϱ' 'ϱ'], .cls false [.rng (Char.ofNat 0x345) (Char.ofNat 0x345), .rng 'Ι' 'Ι', .rng 'ι' 'ι', .rng 'ι' 'ι'], .cls false [.rng 'Ν' 'Ν', .rng 'ν' 'ν'], .lit [' '], .cls false [.rng 'Α' 'Α', .rng 'α' 'α'], .cls false [.rng 'Π' 'Π', .rng 'π' 'π', .rng 'ϖ' 'ϖ'], .cls false [.rng 'Ο' 'Ο', .rng 'ο' 'ο'], .lit [' '], .number, .lit [' '], .cls false [.rng 'Δ' 'Δ', .rng 'δ' 'δ'], .cls false [.rng 'Ε' 'Ε', .rng 'ε' 'ε', .rng 'ϵ' 'ϵ'], .cls false [.rng 'Υ' 'Υ', .rng 'υ' 'υ'], .cls false [.rng 'Τ' 'Τ', .rng 'τ' 'τ']], .seqs [.cls false [.rng 'Π' 'Π', .rng 'π' 'π', .rng 'ϖ' 'ϖ'], .cls false [.rng 'Ρ' 'Ρ', .rng 'ρ' 'ρ', .rng 'ϱ' 'ϱ'], .cls false [.rng (Char.ofNat 0x345) (Char.ofNat 0x345), .rng 'Ι' 'Ι', .rng 'ι' 'ι', .rng 'ι' 'ι'], .cls false [.rng 'Ν' 'Ν', .rng 'ν' 'ν'], .lit [' '], .cls false [.rng 'Α' 'Α', .rng 'α' 'α'], .cls false [.rng 'Π' 'Π', .rng 'π' 'π', .rng 'ϖ' 'ϖ'], .cls false [.rng 'Ο' 'Ο', .rng 'ο' 'ο'], .lit [' '], .number, .lit [' '], .cls false [.rng 'Ε' 'Ε', .rng 'ε' 'ε', .rng 'ϵ' 'ϵ'], .cls false [.rng 'Τ' 'Τ', .rng 'τ' 'τ'], .cls false [.rng 'Ο' 'Ο', .rng 'ο' 'ο'], .cls false [.rng 'Σ' 'Σ', .rng 'ς' 'ς', .rng 'σ' 'σ']], .seqs [.cls false [.rng 'Π' 'Π', .rng 'π' 'π', .rng 'ϖ' 'ϖ'], .cls false [.rng 'Ρ' 'Ρ', .rng 'ρ' 'ρ', .rng 'ϱ' 'ϱ'], .cls false [.rng (Char.ofNat 0x345) (Char.ofNat 0x345), .rng 'Ι' 'Ι', .rng 'ι' 'ι', .rng 'ι' 'ι'], .cls false [.rng 'Ν' 'Ν', .rng 'ν' 'ν'], .lit [' '], .cls false [.rng 'Α' 'Α', .rng 'α' 'α'], .cls false [.rng 'Π' 'Π', .rng 'π' 'π', .rng 'ϖ' 'ϖ'], .cls false [.rng 'Ο' 'Ο', .rng 'ο' 'ο'], .lit [' '], .number, .lit [' '], .cls false [.rng 'µ' 'µ', .rng 'Μ' 'Μ', .rng 'μ' 'μ'], .cls false [.rng 'Η' 'Η', .rng 'η' 'η'], .cls false [.rng 'Ν' 'Ν', .rng 'ν' 'ν'], .cls false [.rng 'Α' 'Α', .rng 'α' 'α']], .seqs [.cls false [.rng 'Π' 'Π', .rng 'π' 'π', .rng 'ϖ' 'ϖ'], .cls false [.rng 'Ρ' 'Ρ', .rng 'ρ' 'ρ', .rng 'ϱ' 'ϱ'], .cls false [.rng (Char.ofNat 0x345) (Char.ofNat 0x345), .rng 'Ι' 'Ι', .rng 'ι' 'ι', .rng 'ι' 'ι'], .cls false [.rng 'Ν' 'Ν', .rng 'ν' 'ν'], .lit [' '], .cls false [.rng 'Α' 'Α', .rng 'α' 'α'], .cls false [.rng 'Π' 'Π', .rng 'π' 'π', .rng 'ϖ' 'ϖ'], .cls false [.rng 'Ο' 'Ο', .rng 'ο' 'ο'], .lit [' '], .number, .lit [' '], .cls false [.rng 'Ω' 'Ω', .rng 'ω' 'ω', .rng 'Ω' 'Ω'], .cls false [.rng 'Ρ' 'Ρ', .rng 'ρ' 'ρ', .rng 'ϱ' 'ϱ'], .cls false [.rng 'Ε' 'Ε', .rng 'ε' 'ε', .rng 'ϵ' 'ϵ'], .cls false [.rng 'Σ' 'Σ', .rng 'ς' 'ς', .rng 'σ' 'σ']], .seqs [.cls false [.rng 'Π' 'Π', .rng 'π' 'π', .rng 'ϖ' 'ϖ'], .cls false [.rng 'Ρ' 'Ρ', .rng 'ρ' 'ρ', .rng 'ϱ' 'ϱ'], .cls false [.rng (Char.ofNat 0x345) (Char.ofNat 0x345), .rng 'Ι' 'Ι', .rng 'ι' 'ι', .rng 'ι' 'ι'], .cls false [.rng 'Ν' 'Ν', .rng 'ν' 'ν'], .lit [' '], .cls false [.rng 'Α' 'Α', .rng 'α' 'α'], .cls false [.rng 'Π' 'Π', .rng 'π' 'π', .rng 'ϖ' 'ϖ'], .cls false [.rng 'Ο' 'Ο', .rng 'ο' 'ο'], .lit [' '], .number, .lit [' '], .cls false [.rng 'Ε' 'Ε', .rng 'ε' 'ε', .rng 'ϵ' 'ϵ'], .cls false [.rng 'Β' 'Β', .rng 'β' 'β', .rng 'ϐ' 'ϐ'], .cls false [.rng 'Δ' 'Δ', .rng 'δ' 'δ']], .seqs [.cls false [.rng 'Π' 'Π', .rng 'π' 'π', .rng 'ϖ' 'ϖ'], .cls false [.rng 'Ρ' 'Ρ', .rng 'ρ' 'ρ', .rng 'ϱ' 'ϱ'], .cls false [.rng (Char.ofNat 0x345) (Char.ofNat 0x345), .rng 'Ι' 'Ι', .rng 'ι' 'ι', .rng 'ι' 'ι'], .cls false [.rng 'Ν' 'Ν', .rng 'ν' 'ν'], .lit [' '], .cls false [.rng 'Α' 'Α', .rng 'α' 'α'], .cls false [.rng 'Π' 'Π', .rng 'π' 'π', .rng 'ϖ' 'ϖ'], .cls false [.rng 'Ο' 'Ο', .rng 'ο' 'ο'], .lit [' '], .number, .lit [' '], .cls false [.rng 'Ε' 'Ε', .rng 'ε' 'ε', .rng 'ϵ' 'ϵ'], .cls false [.rng 'Τ' 'Τ', .rng 'τ' 'τ'], .cls false [.rng 'Η' 'Η', .rng 'η' 'η']], .seqs [.cls false [.rng 'Π' 'Π', .rng 'π' 'π', .rng 'ϖ' 'ϖ'], .cls false [.rng 'Ρ' 'Ρ', .rng 'ρ' 'ρ', .rng 'ϱ' 'ϱ'], .cls false [.rng (Char.ofNat 0x345) (Char.ofNat 0x345), .rng 'Ι' 'Ι', .rng 'ι' 'ι', .rng 'ι' 'ι'], .cls false [.rng 'Ν' 'Ν', .rng 'ν' 'ν'], .lit [' '], .cls false [.rng 'Α' 'Α', .rng 'α' 'α'], .cls false [.rng 'Π' 'Π', .rng 'π' 'π', .rng 'ϖ' 'ϖ'], .cls false [.rng 'Ο' 'Ο', .rng 'ο' 'ο'], .lit [' '], .number, .lit [' '], .cls false [.rng 'Λ' 'Λ', .rng 'λ' 'λ'], .cls false [.rng 'Ε' 'Ε', .rng 'ε' 'ε', .rng 'ϵ' 'ϵ'], .cls false [.rng 'Π' 'Π', .rng 'π' 'π', .rng 'ϖ' 'ϖ']], .seqs [.cls false [.rng 'Π' 'Π', .rng 'π' 'π', .rng 'ϖ' 'ϖ'], .cls false [.rng 'Ρ' 'Ρ', .rng 'ρ' 'ρ', .rng 'ϱ' 'ϱ'], .cls false [.rng (Char.ofNat 0x345) (Char.ofNat 0x345), .rng 'Ι' 'Ι', .rng 'ι' 'ι', .rng 'ι' 'ι'], .cls false [.rng 'Ν' 'Ν', .rng 'ν' 'ν'], .lit [' '], .cls false [.rng 'Α' 'Α', .rng 'α' 'α'], .cls false [.rng 'Π' 'Π', .rng 'π' 'π', .rng 'ϖ' 'ϖ'], .cls false [.rng 'Ο' 'Ο', .rng 'ο' 'ο'], .lit [' '], .number, .lit [' '], .cls false [.rng 'Ω' 'Ω', .rng 'ω' 'ω', .rng 'Ω' 'Ω'], .cls false [.rng 'Ρ' 'Ρ', .rng 'ρ' 'ρ', .rng 'ϱ' 'ϱ'], .cls false [.rng 'Α' 'Α', .rng 'α' 'α']], .seqs [.cls false [.rng 'Σ' 'Σ', .rng 'ς' 'ς', .rng 'σ' 'σ'], .cls false [.rng 'Ε' 'Ε', .rng 'ε' 'ε', .rng 'ϵ' 'ϵ'], .lit [' '], .number, .lit [' '], .cls false [.rng 'Ε' 'Ε', .rng 'ε' 'ε', .rng 'ϵ' 'ϵ'], .cls false [.rng 'Β' 'Β', .rng 'β' 'β', .rng 'ϐ' 'ϐ'], .cls false [.rng 'Δ' 'Δ', .rng 'δ' 'δ'], .cls false [.rng 'Ο' 'Ο', .rng 'ο' 'ο'], .cls false [.rng 'µ' 'µ', .rng 'Μ' 'Μ', .rng 'μ' 'μ'], .cls false [.rng 'Α' 'Α', .rng 'α' 'α'], .cls false [.rng 'Δ' 'Δ', .rng 'δ' 'δ'], .cls false [.rng 'Ε' 'Ε', .rng 'ε' 'ε', .rng 'ϵ' 'ϵ'], .cls false [.rng 'Σ' 'Σ', .rng 'ς' 'ς', .rng 'σ' 'σ']], .seqs [.cls false [.rng 'Π' 'Π', .rng 'π' 'π', .rng 'ϖ' 'ϖ'], .cls false [.rng 'Ρ' 'Ρ', .rng 'ρ' 'ρ', .rng 'ϱ' 'ϱ'], .cls false [.rng (Char.ofNat 0x345) (Char.ofNat 0x345), .rng 'Ι' 'Ι', .rng 'ι' 'ι', .rng 'ι' 'ι'], .cls false [.rng 'Ν' 'Ν', .rng 'ν' 'ν'], .lit [' '], .cls false [.rng 'Α' 'Α', .rng 'α' 'α'], .cls false [.rng 'Π' 'Π', .rng 'π' 'π', .rng 'ϖ' 'ϖ'], .cls false [.rng 'Ο' 'Ο', .rng 'ο' 'ο'], .lit [' '], .number, .lit [' '], .cls false [.rng 'Ω' 'Ω', .rng 'ω' 'ω', .rng 'Ω' 'Ω'], .cls false [.rng 'Ρ' 'Ρ', .rng 'ρ' 'ρ', .rng 'ϱ' 'ϱ']], .seqs [.cls false [.rng 'Σ' 'Σ', .rng 'ς' 'ς', .rng 'σ' 'σ'], .cls false [.rng 'Ε' 'Ε', .rng 'ε' 'ε', .rng 'ϵ' 'ϵ'], .lit [' '], .number, .lit [' '], .cls false [.rng 'Ε' 'Ε', .rng 'ε' 'ε', .rng 'ϵ' 'ϵ'], .cls false [.rng 'Β' 'Β', .rng 'β' 'β', .rng 'ϐ' 'ϐ'], .cls false [.rng 'Δ' 'Δ', .rng 'δ' 'δ'], .cls false [.rng 'Ο' 'Ο', .rng 'ο' 'ο'], .cls false [.rng 'µ' 'µ', .rng 'Μ' 'Μ', .rng 'μ' 'μ'], .cls false [.rng 'Α' 'Α', .rng 'α' 'α'], .cls false [.rng 'Δ' 'Δ', .rng 'δ' 'δ'], .cls false [.rng 'Α' 'Α', .rng 'α' 'α']], .seqs [.number, .lit [' '], .cls false [.rng 'Ε' 'Ε', .rng 'ε' 'ε', .rng 'ϵ' 'ϵ'], .cls false [.rng 'Τ' 'Τ', .rng 'τ' 'τ'], .cls false [.rng 'Ο' 'Ο', .rng 'ο' 'ο'], .cls false [.rng 'Σ' 'Σ', .rng 'ς' 'ς', .rng 'σ' 'σ'], .lit [' '], .cls false [.rng 'Π' 'Π', .rng 'π' 'π', .rng 'ϖ' 'ϖ'], .cls false [.rng 'Ρ' 'Ρ', .rng 'ρ' 'ρ', .rng 'ϱ' 'ϱ'], .cls false [.rng (Char.ofNat 0x345) (Char.ofNat 0x345), .rng 'Ι' 'Ι', .rng 'ι' 'ι', .rng 'ι' 'ι'], .cls false [.rng 'Ν' 'Ν', .rng 'ν' 'ν']], .seqs [.cls false [.rng 'Σ' 'Σ', .rng 'ς' 'ς', .rng 'σ' 'σ'], .cls false [.rng 'Ε' 'Ε', .rng 'ε' 'ε', .rng 'ϵ' 'ϵ'], .lit [' '], .number, .lit [' '], .cls false [.rng 'Η' 'Η', .rng 'η' 'η'], .cls false [.rng 'µ' 'µ', .rng 'Μ' 'Μ', .rng 'μ' 'μ'], .cls false [.rng 'Ε' 'Ε', .rng 'ε' 'ε', .rng 'ϵ' 'ϵ'], .cls false [.rng 'Ρ' 'Ρ', .rng 'ρ' 'ρ', .rng 'ϱ' 'ϱ'], .cls false [.rng 'Ε' 'Ε', .rng 'ε' 'ε', .rng 'ϵ' 'ϵ'], .cls false [.rng 'Σ' 'Σ', .rng 'ς' 'ς', .rng 'σ' 'σ']], .seqs [.number, .lit [' '], .cls false [.rng 'Ε' 'Ε', .rng 'ε' 'ε', .rng 'ϵ' 'ϵ'], .cls false [.rng 'Β' 'Β', .rng 'β' 'β', .rng 'ϐ' 'ϐ'], .cls false [.rng 'Δ' 'Δ', .rng 'δ' 'δ'], .lit [' '], .cls false [.rng 'Π' 'Π', .rng 'π' 'π', .rng 'ϖ' 'ϖ'], .cls false [.rng 'Ρ' 'Ρ', .rng 'ρ' 'ρ', .rng 'ϱ' 'ϱ'], .cls false [.rng (Char.ofNat 0x345) (Char.ofNat 0x345), .rng 'Ι' 'Ι', .rng 'ι' 'ι', .rng 'ι' 'ι'], .cls false [.rng 'Ν' 'Ν', .rng 'ν' 'ν']], .seqs [.number, .lit [' '], .cls false [.rng 'Ε' 'Ε', .rng 'ε' 'ε', .rng 'ϵ' 'ϵ'], .cls false [.rng 'Τ' 'Τ', .rng 'τ' 'τ'], .cls false [.rng 'Η' 'Η', .rng 'η' 'η'], .lit [' '], .cls false [.rng 'Π' 'Π', .rng 'π' 'π', .rng 'ϖ' 'ϖ'], .cls false [.rng 'Ρ' 'Ρ', .rng 'ρ' 'ρ', .rng 'ϱ' 'ϱ'], .cls false [.rng (Char.ofNat 0x345) (Char.ofNat 0x345), .rng 'Ι' 'Ι', .rng 'ι' 'ι', .rng 'ι' 'ι'], .cls false [.rng 'Ν' 'Ν', .rng 'ν' 'ν']], .seqs [.cls false [.rng 'Σ' 'Σ', .rng 'ς' 'ς', .rng 'σ' 'σ'], .cls false [.rng 'Ε' 'Ε', .rng 'ε' 'ε', .rng 'ϵ' 'ϵ'], .lit [' '], .number, .lit [' '], .cls false [.rng 'Η' 'Η', .rng 'η' 'η'], .cls false [.rng 'µ' 'µ', .rng 'Μ' 'Μ', .rng 'μ' 'μ'], .cls false [.rng 'Ε' 'Ε', .rng 'ε' 'ε', .rng 'ϵ' 'ϵ'], .cls false [.rng 'Ρ' 'Ρ', .rng 'ρ' 'ρ', .rng 'ϱ' 'ϱ'], .cls false [.rng 'Α' 'Α', .rng 'α' 'α']], .seqs [.cls false [.rng 'Σ' 'Σ', .rng 'ς' 'ς', .rng 'σ' 'σ'], .cls false [.rng 'Ε' 'Ε', .rng 'ε' 'ε', .rng 'ϵ' 'ϵ'], .lit [' '], .number, .lit [' '], .cls false [.rng 'Λ' 'Λ', .rng 'λ' 'λ'], .cls false [.rng 'Ε' 'Ε', .rng 'ε' 'ε', .rng 'ϵ' 'ϵ'], .cls false [.rng 'Π' 'Π', .rng 'π' 'π', .rng 'ϖ' 'ϖ'], .cls false [.rng 'Τ' 'Τ', .rng 'τ' 'τ'], .cls false [.rng 'Α' 'Α', .rng 'α' 'α']], .seqs [.cls false [.rng 'Σ' 'Σ', .rng 'ς' 'ς', .rng 'σ' 'σ'], .cls false [.rng 'Ε' 'Ε', .rng 'ε' 'ε', .rng 'ϵ' 'ϵ'], .lit [' '], .number, .lit [' '], .cls false [.rng 'Λ' 'Λ', .rng 'λ' 'λ'], .cls false [.rng 'Ε' 'Ε', .rng 'ε' 'ε', .rng 'ϵ' 'ϵ'], .cls false [.rng 'Π' 'Π', .rng 'π' 'π', .rng 'ϖ' 'ϖ'], .cls false [.rng 'Τ' 'Τ', .rng 'τ' 'τ'], .cls false [.rng 'Ο' 'Ο', .rng 'ο' 'ο']], .seqs [.cls false [.rng 'Σ' 'Σ', .rng 'ς' 'ς', .rng 'σ' 'σ'], .cls false [.rng 'Ε' 'Ε', .rng 'ε' 'ε', .rng 'ϵ' 'ϵ'], .lit [' '], .number, .lit [' '], .cls false [.rng 'µ' 'µ', .rng 'Μ' 'Μ', .rng 'μ' 'μ'], .cls false [.rng 'Η' 'Η', .rng 'η' 'η'], .cls false [.rng 'Ν' 'Ν', .rng 'ν' 'ν'], .cls false [.rng 'Ε' 'Ε', .rng 'ε' 'ε', .rng 'ϵ' 'ϵ'], .cls false [.rng 'Σ' 'Σ', .rng 'ς' 'ς', .rng 'σ' 'σ']], .seqs [.number, .lit [' '], .cls false [.rng 'Η' 'Η', .rng 'η' 'η'], .cls false [.rng 'µ' 'µ', .rng 'Μ' 'Μ', .rng 'μ' 'μ'], .lit [' '], .cls false [.rng 'Π' 'Π', .rng 'π' 'π', .rng 'ϖ' 'ϖ'], .cls false [.rng 'Ρ' 'Ρ', .rng 'ρ' 'ρ', .rng 'ϱ' 'ϱ'], .cls false [.rng (Char.ofNat 0x345) (Char.ofNat 0x345), .rng 'Ι' 'Ι', .rng 'ι' 'ι', .rng 'ι' 'ι'], .cls false [.rng 'Ν' 'Ν', .rng 'ν' 'ν']], .seqs [.cls false [.rng 'Σ' 'Σ', .rng 'ς' 'ς', .rng 'σ' 'σ'], .cls false [.rng 'Ε' 'Ε', .rng 'ε' 'ε', .rng 'ϵ' 'ϵ'], .lit [' '], .number, .lit [' '], .cls false [.rng 'Δ' 'Δ', .rng 'δ' 'δ'], .cls false [.rng 'Ε' 'Ε', .rng 'ε' 'ε', .rng 'ϵ' 'ϵ'], .cls false [.rng 'Υ' 'Υ', .rng 'υ' 'υ'], .cls false [.rng 'Τ' 'Τ', .rng 'τ' 'τ']], .seqs [.cls false [.rng 'Σ' 'Σ', .rng 'ς' 'ς', .rng 'σ' 'σ'], .cls false [.rng 'Ε' 'Ε', .rng 'ε' 'ε', .rng 'ϵ' 'ϵ'], .lit [' '], .number, .lit [' '], .cls false [.rng 'Ε' 'Ε', .rng 'ε' 'ε', .rng 'ϵ' 'ϵ'], .cls false [.rng 'Τ' 'Τ', .rng 'τ' 'τ'], .cls false [.rng 'Ο' 'Ο', .rng 'ο' 'ο'], .cls false [.rng 'Σ' 'Σ', .rng 'ς' 'ς', .rng 'σ' 'σ']], .seqs [.cls false [.rng 'Σ' 'Σ', .rng 'ς' 'ς', .rng 'σ' 'σ'], .cls false [.rng 'Ε' 'Ε', .rng 'ε' 'ε', .rng 'ϵ' 'ϵ'], .lit [' '], .number, .lit [' '], .cls false [.rng 'µ' 'µ', .rng 'Μ' 'Μ', .rng 'μ' 'μ'], .cls false [.rng 'Η' 'Η', .rng 'η' 'η'], .cls false [.rng 'Ν' 'Ν', .rng 'ν' 'ν'], .cls false [.rng 'Α' 'Α', .rng 'α' 'α']], .seqs [.cls false [.rng 'Σ' 'Σ', .rng 'ς' 'ς', .rng 'σ' 'σ'], .cls false [.rng 'Ε' 'Ε', .rng 'ε' 'ε', .rng 'ϵ' 'ϵ'], .lit [' '], .number, .lit [' '], .cls false [.rng 'Ω' 'Ω', .rng 'ω' 'ω', .rng 'Ω' 'Ω'], .cls false [.rng 'Ρ' 'Ρ', .rng 'ρ' 'ρ', .rng 'ϱ' 'ϱ'], .cls false [.rng 'Ε' 'Ε', .rng 'ε' 'ε', .rng 'ϵ' 'ϵ'], .cls false [.rng 'Σ' 'Σ', .rng 'ς' 'ς', .rng 'σ' 'σ']], .seqs [.number, .lit [' '], .cls false [.rng 'Δ' 'Δ', .rng 'δ' 'δ'], .lit [' '], .cls false [.rng 'Π' 'Π', .rng 'π' 'π', .rng 'ϖ' 'ϖ'], .cls false [.rng 'Ρ' 'Ρ', .rng 'ρ' 'ρ', .rng 'ϱ' 'ϱ'], .cls false [.rng (Char.ofNat 0x345) (Char.ofNat 0x345), .rng 'Ι' 'Ι', .rng 'ι' 'ι', .rng 'ι' 'ι'], .cls false [.rng 'Ν' 'Ν', .rng 'ν' 'ν']], .seqs [.number, .lit [' '], .cls false [.rng 'Λ' 'Λ', .rng 'λ' 'λ'], .lit [' '], .cls false [.rng 'Π' 'Π', .rng 'π' 'π', .rng 'ϖ' 'ϖ'], .cls false [.rng 'Ρ' 'Ρ', .rng 'ρ' 'ρ', .rng 'ϱ' 'ϱ'], .cls false [.rng (Char.ofNat 0x345) (Char.ofNat 0x345), .rng 'Ι' 'Ι', .rng 'ι' 'ι', .rng 'ι' 'ι'], .cls false [.rng 'Ν' 'Ν', .rng 'ν' 'ν']], .seqs [.number, .lit [' '], .cls false [.rng 'µ' 'µ', .rng 'Μ' 'Μ', .rng 'μ' 'μ'], .lit [' '], .cls false [.rng 'Π' 'Π', .rng 'π' 'π', .rng 'ϖ' 'ϖ'], .cls false [.rng 'Ρ' 'Ρ', .rng 'ρ' 'ρ', .rng 'ϱ' 'ϱ'], .cls false [.rng (Char.ofNat 0x345) (Char.ofNat 0x345), .rng 'Ι' 'Ι', .rng 'ι' 'ι', .rng 'ι' 'ι'], .cls false [.rng 'Ν' 'Ν', .rng 'ν' 'ν']], .seqs [.number, .lit [' '], .cls false [.rng 'Ω' 'Ω', .rng 'ω' 'ω', .rng 'Ω' 'Ω'], .lit [' '], .cls false [.rng 'Π' 'Π', .rng 'π' 'π', .rng 'ϖ' 'ϖ'], .cls false [.rng 'Ρ' 'Ρ', .rng 'ρ' 'ρ', .rng 'ϱ' 'ϱ'], .cls false [.rng (Char.ofNat 0x345) (Char.ofNat 0x345), .rng 'Ι' 'Ι', .rng 'ι' 'ι', .rng 'ι' 'ι'], .cls false [.rng 'Ν' 'Ν', .rng 'ν' 'ν']], .seqs [.cls false [.rng 'Σ' 'Σ', .rng 'ς' 'ς', .rng 'σ' 'σ'], .cls false [.rng 'Ε' 'Ε', .rng 'ε' 'ε', .rng 'ϵ' 'ϵ'], .lit [' '], .number, .lit [' '], .cls false [.rng 'Ε' 'Ε', .rng 'ε' 'ε', .rng 'ϵ' 'ϵ'], .cls false [.rng 'Β' 'Β', .rng 'β' 'β', .rng 'ϐ' 'ϐ'], .cls false [.rng 'Δ' 'Δ', .rng 'δ' 'δ']], .seqs [.cls false [.rng 'Σ' 'Σ', .rng 'ς' 'ς', .rng 'σ' 'σ'], .cls false [.rng 'Ε' 'Ε', .rng 'ε' 'ε', .rng 'ϵ' 'ϵ'], .lit [' '], .number, .lit [' '], .cls false [.rng 'Ε' 'Ε', .rng 'ε' 'ε', .rng 'ϵ' 'ϵ'], .cls false [.rng 'Τ' 'Τ', .rng 'τ' 'τ'], .cls false [.rng 'Η' 'Η', .rng 'η' 'η']], .seqs [.cls false [.rng 'Σ' 'Σ', .rng 'ς' 'ς', .rng 'σ' 'σ'], .cls false [.rng 'Ε' 'Ε', .rng 'ε' 'ε', .rng 'ϵ' 'ϵ'], .lit [' '], .number, .lit [' '], .cls false [.rng 'Λ' 'Λ', .rng 'λ' 'λ'], .cls false [.rng 'Ε' 'Ε', .rng 'ε' 'ε', .rng 'ϵ' 'ϵ'], .cls false [.rng 'Π' 'Π', .rng 'π' 'π', .rng 'ϖ' 'ϖ']], .seqs [.cls false [.rng 'Σ' 'Σ', .rng 'ς' 'ς', .rng 'σ' 'σ'], .cls false [.rng 'Ε' 'Ε', .rng 'ε' 'ε', .rng 'ϵ' 'ϵ'], .lit [' '], .number, .lit [' '], .cls false [.rng 'Ω' 'Ω', .rng 'ω' 'ω', .rng 'Ω' 'Ω'], .cls false [.rng 'Ρ' 'Ρ', .rng 'ρ' 'ρ', .rng 'ϱ' 'ϱ'], .cls false [.rng 'Α' 'Α', .rng 'α' 'α']], .seqs [.cls false [.rng 'Σ' 'Σ', .rng 'ς' 'ς', .rng 'σ' 'σ'], .cls false [.rng 'Ε' 'Ε', .rng 'ε' 'ε', .rng 'ϵ' 'ϵ'], .lit [' '], .number, .lit [' '], .cls false [.rng 'Η' 'Η', .rng 'η' 'η'], .cls false [.rng 'µ' 'µ', .rng 'Μ' 'Μ', .rng 'μ' 'μ']], .seqs [.cls false [.rng 'Σ' 'Σ', .rng 'ς' 'ς', .rng 'σ' 'σ'], .cls false [.rng 'Ε' 'Ε', .rng 'ε' 'ε', .rng 'ϵ' 'ϵ'], .lit [' '], .number, .lit [' '], .cls false [.rng 'Ω' 'Ω', .rng 'ω' 'ω', .rng 'Ω' 'Ω'], .cls false [.rng 'Ρ' 'Ρ', .rng 'ρ' 'ρ', .rng 'ϱ' 'ϱ']], .seqs [.cls false [.rng 'Σ' 'Σ', .rng 'ς' 'ς', .rng 'σ' 'σ'], .cls false [.rng 'Ε' 'Ε', .rng 'ε' 'ε', .rng 'ϵ' 'ϵ'], .lit [' '], .number, .lit [' '], .cls false [.rng 'Δ' 'Δ', .rng 'δ' 'δ']], .seqs [.cls false [.rng 'Σ' 'Σ', .rng 'ς' 'ς', .rng 'σ' 'σ'], .cls false [.rng 'Ε' 'Ε', .rng 'ε' 'ε', .rng 'ϵ' 'ϵ'], .lit [' '], .number, .lit [' '], .cls false [.rng 'Λ' 'Λ', .rng 'λ' 'λ']], .seqs [.cls false [.rng 'Σ' 'Σ', .rng 'ς' 'ς', .rng 'σ' 'σ'], .cls false [.rng 'Ε' 'Ε', .rng 'ε' 'ε', .rng 'ϵ' 'ϵ'], .lit [' '], .number, .lit [' '], .cls false [.rng 'µ' 'µ', .rng 'Μ' 'Μ', .rng 'μ' 'μ']], .seqs [.cls false [.rng 'Σ' 'Σ', .rng 'ς' 'ς', .rng 'σ' 'σ'], .cls false [.rng 'Ε' 'Ε', .rng 'ε' 'ε', .rng 'ϵ' 'ϵ'], .lit [' '], .number, .lit [' '], .cls false [.rng 'Ω' 'Ω', .rng 'ω' 'ω', .rng 'Ω' 'Ω']]]), .eos]),
  knownWords :=
   [['π', 'ρ', 'ο', 'η', 'γ', 'ο', 'υ', 'μ', 'ε', 'ν', 'η', ' ', 'ε', 'β', 'δ', 'ο', 'μ', 'α', 'δ', 'α'], ['α', 'υ', 'τ', 'η', 'ν', ' ', 'τ', 'η', 'ν', ' ', 'ε', 'β', 'δ', 'ο', 'μ', 'α', 'δ', 'α'], ['π', 'ρ', 'ο', 'η', 'γ', 'ο', 'υ', 'μ', 'ε', 'ν', 'ο', 'ς', ' ', 'μ', 'η', 'ν', 'α', 'ς'], ['ε', 'π', 'ο', 'μ', 'ε', 'ν', 'η', ' ', 'ε', 'β', 'δ', 'ο', 'μ', 'α', 'δ', 'α'], ['ε', 'π', 'ο', 'μ', 'ε', 'ν', 'ο', 'ς', ' ', 'μ', 'η', 'ν', 'α', 'ς'], ['α', 'υ', 'τ', 'η', 'ν', ' ', 'τ', 'η', 'ν', ' ', 'ω', 'ρ', 'α'], ['α', 'υ', 'τ', 'ο', ' ', 'τ', 'ο', ' ', 'λ', 'ε', 'π', 'τ', 'ο'], ['δ', 'ε', 'υ', 'τ', 'ε', 'ρ', 'ο', 'λ', 'ε', 'π', 'τ', 'ο'], ['ε', 'π', 'ο', 'μ', 'ε', 'ν', 'ο', ' ', 'ε', 'τ', 'ο', 'ς'], ['τ', 'ρ', 'ε', 'χ', 'ω', 'ν', ' ', 'μ', 'η', 'ν', 'α', 'ς'], ['σ', 'ε', 'π', 'τ', 'ε', 'μ', 'β', 'ρ', 'ι', 'ο', 'ς'], ['σ', 'ε', 'π', 'τ', 'ε', 'μ', 'β', 'ρ', 'ι', 'ο', 'υ'], ['φ', 'ε', 'β', 'ρ', 'ο', 'υ', 'α', 'ρ', 'ι', 'ο', 'ς'], ['φ', 'ε', 'β', 'ρ', 'ο', 'υ', 'α', 'ρ', 'ι', 'ο', 'υ'], ['δ', 'ε', 'κ', 'ε', 'μ', 'β', 'ρ', 'ι', 'ο', 'ς'], ['δ', 'ε', 'κ', 'ε', 'μ', 'β', 'ρ', 'ι', 'ο', 'υ'], ['ι', 'α', 'ν', 'ο', 'υ', 'α', 'ρ', 'ι', 'ο', 'ς'], ['ι', 'α', 'ν', 'ο', 'υ', 'α', 'ρ', 'ι', 'ο', 'υ'], ['α', 'υ', 'γ', 'ο', 'υ', 'σ', 'τ', 'ο', 'ς'], ['α', 'υ', 'γ', 'ο', 'υ', 'σ', 'τ', 'ο', 'υ'], ['ν', 'ο', 'ε', 'μ', 'β', 'ρ', 'ι', 'ο', 'ς'], ['ν', 'ο', 'ε', 'μ', 'β', 'ρ', 'ι', 'ο', 'υ'], ['ο', 'κ', 'τ', 'ω', 'β', 'ρ', 'ι', 'ο', 'ς'], ['ο', 'κ', 'τ', 'ω', 'β', 'ρ', 'ι', 'ο', 'υ'], ['π', 'α', 'ρ', 'α', 'σ', 'κ', 'ε', 'υ', 'η'], ['α', 'π', 'ρ', 'ι', 'λ', 'ι', 'ο', 'ς'], ['α', 'π', 'ρ', 'ι', 'λ', 'ι', 'ο', 'υ'], ['ε', 'β', 'δ', 'ο', 'μ', 'α', 'δ', 'α'], ['δ', 'ε', 'υ', 'τ', 'ε', 'ρ', 'α'], ['ι', 'ο', 'υ', 'λ', 'ι', 'ο', 'ς'], ['ι', 'ο', 'υ', 'λ', 'ι', 'ο', 'υ'], ['ι', 'ο', 'υ', 'ν', 'ι', 'ο', 'ς'], ['ι', 'ο', 'υ', 'ν', 'ι', 'ο', 'υ'], ['κ', 'υ', 'ρ', 'ι', 'α', 'κ', 'η'], ['μ', 'α', 'ρ', 'τ', 'ι', 'ο', 'ς'], ['μ', 'α', 'ρ', 'τ', 'ι', 'ο', 'υ'], ['σ', 'α', 'β', 'β', 'α', 'τ', 'ο'], ['τ', 'ε', 'τ', 'α', 'ρ', 'τ', 'η'], ['π', 'ε', 'μ', 'π', 'τ', 'η'], ['σ', 'η', 'μ', 'ε', 'ρ', 'α'], ['α', 'υ', 'ρ', 'ι', 'ο'], ['η', 'μ', 'ε', 'ρ', 'α'], ['λ', 'ε', 'π', 'τ', 'ο'], ['μ', 'α', 'ι', 'ο', 'ς'], ['μ', 'α', 'ι', 'ο', 'υ'], ['μ', 'η', 'ν', 'α', 'ς'], ['π', 'ε', 'ρ', 'σ', 'ι'], ['τ', 'ρ', 'ι', 'τ', 'η'], ['φ', 'ε', 'τ', 'ο', 'ς'], ['δ', 'ε', 'υ', 'τ'], ['ε', 'τ', 'ο', 'ς'], ['ι', 'ο', 'υ', 'λ'], ['ι', 'ο', 'υ', 'ν'], ['τ', 'ω', 'ρ', 'α'], ['χ', 'θ', 'ε', 'ς'], ['g', 'm', 't'], ['u', 't', 'c'], ['α', 'π', 'ρ'], ['α', 'υ', 'γ'], ['δ', 'ε', 'κ'], ['δ', 'ε', 'υ'], ['ε', 'β', 'δ'], ['ι', 'α', 'ν'], ['κ', 'υ', 'ρ'], ['λ', 'ε', 'π'], ['μ', 'α', 'ι'], ['μ', 'α', 'ρ'], ['μ', 'η', 'ν'], ['ν', 'ο', 'ε'], ['ο', 'κ', 'τ'], ['π', 'α', 'ρ'], ['π', 'ε', 'μ'], ['σ', 'α', 'β'], ['σ', 'ε', 'π'], ['τ', 'ε', 'τ'], ['τ', 'ρ', 'ι'], ['φ', 'ε', 'β'], ['ω', 'ρ', 'α'], ['a', 'm'], ['p', 'm'], ['ε', 'τ'], ['μ', 'μ'], ['π', 'μ'], ['ω', 'ρ'], [' '], ['\''], ['+'], [','], ['-'], ['.'], ['/'], [':'], [';'], ['@'], ['['], [']'], ['z'], ['|'], ['δ'], ['λ'], ['ω']] }

end Verif.Data
