import Verif.Data.Dicts
/-! GENERATED by tools/gen_pats.py from /repo/internal/data; do not edit. -/
set_option autoImplicit false
set_option maxRecDepth 100000
namespace Verif.Data
open Verif.Model

/-- internal/data/af.go: `af_Locale`. -/
def afLang : LangData := { afDict with
  relativeRegexes :=
   [(.seqs [.grp 1 (.number), .lit [' ', 's', 'e', 'k', 'o', 'n', 'd', 'e', 's', ' ', 'g', 'e', 'l', 'e', 'd', 'e']], [.ref 1, .lit [' ', 's', 'e', 'c', 'o', 'n', 'd', ' ', 'a', 'g', 'o']]),
    (.seqs [.grp 1 (.number), .lit [' ', 's', 'e', 'k', 'o', 'n', 'd', 'e', ' ', 'g', 'e', 'l', 'e', 'd', 'e']], [.ref 1, .lit [' ', 's', 'e', 'c', 'o', 'n', 'd', ' ', 'a', 'g', 'o']]),
    (.seqs [.grp 1 (.number), .lit [' ', 'm', 'a', 'a', 'n', 'd', 'e', ' ', 'g', 'e', 'l', 'e', 'd', 'e']], [.ref 1, .lit [' ', 'm', 'o', 'n', 't', 'h', ' ', 'a', 'g', 'o']]),
    (.seqs [.grp 1 (.number), .lit [' ', 'm', 'i', 'n', 'u', 't', 'e', ' ', 'g', 'e', 'l', 'e', 'd', 'e']], [.ref 1, .lit [' ', 'm', 'i', 'n', 'u', 't', 'e', ' ', 'a', 'g', 'o']]),
    (.seqs [.grp 1 (.number), .lit [' ', 'm', 'i', 'n', 'u', 'u', 't', ' ', 'g', 'e', 'l', 'e', 'd', 'e']], [.ref 1, .lit [' ', 'm', 'i', 'n', 'u', 't', 'e', ' ', 'a', 'g', 'o']]),
    (.seqs [.grp 1 (.number), .lit [' ', 'm', 'a', 'a', 'n', 'd', ' ', 'g', 'e', 'l', 'e', 'd', 'e']], [.ref 1, .lit [' ', 'm', 'o', 'n', 't', 'h', ' ', 'a', 'g', 'o']]),
    (.seqs [.lit ['o', 'o', 'r', ' '], .grp 1 (.number), .lit [' ', 's', 'e', 'k', 'o', 'n', 'd', 'e', 's']], [.lit ['i', 'n', ' '], .ref 1, .lit [' ', 's', 'e', 'c', 'o', 'n', 'd']]),
    (.seqs [.grp 1 (.number), .lit [' ', 'j', 'a', 'a', 'r', ' ', 'g', 'e', 'l', 'e', 'd', 'e']], [.ref 1, .lit [' ', 'y', 'e', 'a', 'r', ' ', 'a', 'g', 'o']]),
    (.seqs [.grp 1 (.number), .lit [' ', 'w', 'e', 'e', 'k', ' ', 'g', 'e', 'l', 'e', 'd', 'e']], [.ref 1, .lit [' ', 'w', 'e', 'e', 'k', ' ', 'a', 'g', 'o']]),
    (.seqs [.grp 1 (.number), .lit [' ', 'w', 'e', 'k', 'e', ' ', 'g', 'e', 'l', 'e', 'd', 'e']], [.ref 1, .lit [' ', 'w', 'e', 'e', 'k', ' ', 'a', 'g', 'o']]),
    (.seqs [.lit ['o', 'o', 'r', ' '], .grp 1 (.number), .lit [' ', 's', 'e', 'k', 'o', 'n', 'd', 'e']], [.lit ['i', 'n', ' '], .ref 1, .lit [' ', 's', 'e', 'c', 'o', 'n', 'd']]),
    (.seqs [.grp 1 (.number), .lit [' ', 'd', 'a', 'e', ' ', 'g', 'e', 'l', 'e', 'd', 'e']], [.ref 1, .lit [' ', 'd', 'a', 'y', ' ', 'a', 'g', 'o']]),
    (.seqs [.grp 1 (.number), .lit [' ', 'd', 'a', 'g', ' ', 'g', 'e', 'l', 'e', 'd', 'e']], [.ref 1, .lit [' ', 'd', 'a', 'y', ' ', 'a', 'g', 'o']]),
    (.seqs [.grp 1 (.number), .lit [' ', 'm', 'i', 'n', ' ', 'g', 'e', 'l', 'e', 'd', 'e']], [.ref 1, .lit [' ', 'm', 'i', 'n', 'u', 't', 'e', ' ', 'a', 'g', 'o']]),
    (.seqs [.grp 1 (.number), .lit [' ', 's', 'e', 'k', ' ', 'g', 'e', 'l', 'e', 'd', 'e']], [.ref 1, .lit [' ', 's', 'e', 'c', 'o', 'n', 'd', ' ', 'a', 'g', 'o']]),
    (.seqs [.grp 1 (.number), .lit [' ', 'u', 'u', 'r', ' ', 'g', 'e', 'l', 'e', 'd', 'e']], [.ref 1, .lit [' ', 'h', 'o', 'u', 'r', ' ', 'a', 'g', 'o']]),
    (.seqs [.lit ['o', 'o', 'r', ' '], .grp 1 (.number), .lit [' ', 'm', 'i', 'n', 'u', 'u', 't']], [.lit ['i', 'n', ' '], .ref 1, .lit [' ', 'm', 'o', 'n', 't', 'h']]),
    (.seqs [.grp 1 (.number), .lit [' ', 'm', 'd', ' ', 'g', 'e', 'l', 'e', 'd', 'e']], [.ref 1, .lit [' ', 'm', 'o', 'n', 't', 'h', ' ', 'a', 'g', 'o']]),
    (.seqs [.grp 1 (.number), .lit [' ', 'w', ' ', 'g', 'e', 'l', 'e', 'd', 'e']], [.ref 1, .lit [' ', 'w', 'e', 'e', 'k', ' ', 'a', 'g', 'o']]),
    (.seqs [.lit ['o', 'o', 'r', ' '], .grp 1 (.number), .lit [' ', 'j', 'a', 'a', 'r']], [.lit ['i', 'n', ' '], .ref 1, .lit [' ', 'y', 'e', 'a', 'r']]),
    (.seqs [.lit ['o', 'o', 'r', ' '], .grp 1 (.number), .lit [' ', 'w', 'e', 'e', 'k']], [.lit ['i', 'n', ' '], .ref 1, .lit [' ', 'w', 'e', 'e', 'k']]),
    (.seqs [.lit ['o', 'o', 'r', ' '], .grp 1 (.number), .lit [' ', 'w', 'e', 'k', 'e']], [.lit ['i', 'n', ' '], .ref 1, .lit [' ', 'w', 'e', 'e', 'k']]),
    (.seqs [.lit ['o', 'o', 'r', ' '], .grp 1 (.number), .lit [' ', 'd', 'a', 'e']], [.lit ['i', 'n', ' '], .ref 1, .lit [' ', 'd', 'a', 'y']]),
    (.seqs [.lit ['o', 'o', 'r', ' '], .grp 1 (.number), .lit [' ', 'd', 'a', 'g']], [.lit ['i', 'n', ' '], .ref 1, .lit [' ', 'd', 'a', 'y']]),
    (.seqs [.lit ['o', 'o', 'r', ' '], .grp 1 (.number), .lit [' ', 'm', 'i', 'n']], [.lit ['i', 'n', ' '], .ref 1, .lit [' ', 'm', 'i', 'n', 'u', 't', 'e']]),
    (.seqs [.lit ['o', 'o', 'r', ' '], .grp 1 (.number), .lit [' ', 's', 'e', 'k']], [.lit ['i', 'n', ' '], .ref 1, .lit [' ', 's', 'e', 'c', 'o', 'n', 'd']]),
    (.seqs [.lit ['o', 'o', 'r', ' '], .grp 1 (.number), .lit [' ', 'u', 'u', 'r']], [.lit ['i', 'n', ' '], .ref 1, .lit [' ', 'h', 'o', 'u', 'r']]),
    (.seqs [.lit ['o', 'o', 'r', ' '], .grp 1 (.number), .lit [' ', 'm', 'd']], [.lit ['i', 'n', ' '], .ref 1, .lit [' ', 'm', 'o', 'n', 't', 'h']]),
    (.seqs [.lit ['o', 'o', 'r', ' '], .grp 1 (.number), .lit [' ', 'w']], [.lit ['i', 'n', ' '], .ref 1, .lit [' ', 'w', 'e', 'e', 'k']])],
  rxCombined := some (.seqs [.grp 1 (.alts [.bos, .cls true [.letter, .mark, .digit], .lit ['_']]), .grp 2 (.alts [.seqs [.number, .lit [' ', 's', 'e', 'k', 'o', 'n', 'd', 'e', 's', ' ', 'g', 'e', 'l', 'e', 'd', 'e']], .seqs [.number, .lit [' ', 's', 'e', 'k', 'o', 'n', 'd', 'e', ' ', 'g', 'e', 'l', 'e', 'd', 'e']], .seqs [.number, .lit [' ', 'm', 'a', 'a', 'n', 'd', 'e', ' ', 'g', 'e', 'l', 'e', 'd', 'e']], .seqs [.number, .lit [' ', 'm', 'i', 'n', 'u', 't', 'e', ' ', 'g', 'e', 'l', 'e', 'd', 'e']], .seqs [.number, .lit [' ', 'm', 'i', 'n', 'u', 'u', 't', ' ', 'g', 'e', 'l', 'e', 'd', 'e']], .seqs [.number, .lit [' ', 'm', 'a', 'a', 'n', 'd', ' ', 'g', 'e', 'l', 'e', 'd', 'e']], .seqs [.lit ['o', 'o', 'r', ' '], .number, .lit [' ', 's', 'e', 'k', 'o', 'n', 'd', 'e', 's']], .seqs [.number, .lit [' ', 'j', 'a', 'a', 'r', ' ', 'g', 'e', 'l', 'e', 'd', 'e']], .seqs [.number, .lit [' ', 'w', 'e', 'e', 'k', ' ', 'g', 'e', 'l', 'e', 'd', 'e']], .seqs [.number, .lit [' ', 'w', 'e', 'k', 'e', ' ', 'g', 'e', 'l', 'e', 'd', 'e']], .seqs [.lit ['o', 'o', 'r', ' '], .number, .lit [' ', 's', 'e', 'k', 'o', 'n', 'd', 'e']], .seqs [.number, .lit [' ', 'd', 'a', 'e', ' ', 'g', 'e', 'l', 'e', 'd', 'e']], .seqs [.number, .lit [' ', 'd', 'a', 'g', ' ', 'g', 'e', 'l', 'e', 'd', 'e']], .seqs [.number, .lit [' ', 'm', 'i', 'n', ' ', 'g', 'e', 'l', 'e', 'd', 'e']], .seqs [.number, .lit [' ', 's', 'e', 'k', ' ', 'g', 'e', 'l', 'e', 'd', 'e']], .seqs [.number, .lit [' ', 'u', 'u', 'r', ' ', 'g', 'e', 'l', 'e', 'd', 'e']], .seqs [.lit ['o', 'o', 'r', ' '], .number, .lit [' ', 'm', 'i', 'n', 'u', 'u', 't']], .seqs [.number, .lit [' ', 'm', 'd', ' ', 'g', 'e', 'l', 'e', 'd', 'e']], .seqs [.number, .lit [' ', 'w', ' ', 'g', 'e', 'l', 'e', 'd', 'e']], .seqs [.lit ['o', 'o', 'r', ' '], .number, .lit [' ', 'j', 'a', 'a', 'r']], .seqs [.lit ['o', 'o', 'r', ' '], .number, .lit [' ', 'w', 'e', 'e', 'k']], .seqs [.lit ['o', 'o', 'r', ' '], .number, .lit [' ', 'w', 'e', 'k', 'e']], .seqs [.lit ['o', 'o', 'r', ' '], .number, .lit [' ', 'd', 'a', 'e']], .seqs [.lit ['o', 'o', 'r', ' '], .number, .lit [' ', 'd', 'a', 'g']], .seqs [.lit ['o', 'o', 'r', ' '], .number, .lit [' ', 'm', 'i', 'n']], .seqs [.lit ['o', 'o', 'r', ' '], .number, .lit [' ', 's', 'e', 'k']], .seqs [.lit ['o', 'o', 'r', ' '], .number, .lit [' ', 'u', 'u', 'r']], .seqs [.lit ['o', 'o', 'r', ' '], .number, .lit [' ', 'm', 'd']], .seqs [.lit ['o', 'o', 'r', ' '], .number, .lit [' ', 'w']]]), .grp 3 (.alts [.eos, .cls true [.letter, .mark, .digit], .lit ['_']])], 3),
  rxExact := some (.seqs [.bos, .grp 1 (.alts [.seqs [.number, .lit [' ', 's', 'e', 'k', 'o', 'n', 'd', 'e', 's', ' ', 'g', 'e', 'l', 'e', 'd', 'e']], .seqs [.number, .lit [' ', 's', 'e', 'k', 'o', 'n', 'd', 'e', ' ', 'g', 'e', 'l', 'e', 'd', 'e']], .seqs [.number, .lit [' ', 'm', 'a', 'a', 'n', 'd', 'e', ' ', 'g', 'e', 'l', 'e', 'd', 'e']], .seqs [.number, .lit [' ', 'm', 'i', 'n', 'u', 't', 'e', ' ', 'g', 'e', 'l', 'e', 'd', 'e']], .seqs [.number, .lit [' ', 'm', 'i', 'n', 'u', 'u', 't', ' ', 'g', 'e', 'l', 'e', 'd', 'e']], .seqs [.number, .lit [' ', 'm', 'a', 'a', 'n', 'd', ' ', 'g', 'e', 'l', 'e', 'd', 'e']], .seqs [.lit ['o', 'o', 'r', ' '], .number, .lit [' ', 's', 'e', 'k', 'o', 'n', 'd', 'e', 's']], .seqs [.number, .lit [' ', 'j', 'a', 'a', 'r', ' ', 'g', 'e', 'l', 'e', 'd', 'e']], .seqs [.number, .lit [' ', 'w', 'e', 'e', 'k', ' ', 'g', 'e', 'l', 'e', 'd', 'e']], .seqs [.number, .lit [' ', 'w', 'e', 'k', 'e', ' ', 'g', 'e', 'l', 'e', 'd', 'e']], .seqs [.lit ['o', 'o', 'r', ' '], .number, .lit [' ', 's', 'e', 'k', 'o', 'n', 'd', 'e']], .seqs [.number, .lit [' ', 'd', 'a', 'e', ' ', 'g', 'e', 'l', 'e', 'd', 'e']], .seqs [.number, .lit [' ', 'd', 'a', 'g', ' ', 'g', 'e', 'l', 'e', 'd', 'e']], .seqs [.number, .lit [' ', 'm', 'i', 'n', ' ', 'g', 'e', 'l', 'e', 'd', 'e']], .seqs [.number, .lit [' ', 's', 'e', 'k', ' ', 'g', 'e', 'l', 'e', 'd', 'e']], .seqs [.number, .lit [' ', 'u', 'u', 'r', ' ', 'g', 'e', 'l', 'e', 'd', 'e']], .seqs [.lit ['o', 'o', 'r', ' '], .number, .lit [' ', 'm', 'i', 'n', 'u', 'u', 't']], .seqs [.number, .lit [' ', 'm', 'd', ' ', 'g', 'e', 'l', 'e', 'd', 'e']], .seqs [.number, .lit [' ', 'w', ' ', 'g', 'e', 'l', 'e', 'd', 'e']], .seqs [.lit ['o', 'o', 'r', ' '], .number, .lit [' ', 'j', 'a', 'a', 'r']], .seqs [.lit ['o', 'o', 'r', ' '], .number, .lit [' ', 'w', 'e', 'e', 'k']], .seqs [.lit ['o', 'o', 'r', ' '], .number, .lit [' ', 'w', 'e', 'k', 'e']], .seqs [.lit ['o', 'o', 'r', ' '], .number, .lit [' ', 'd', 'a', 'e']], .seqs [.lit ['o', 'o', 'r', ' '], .number, .lit [' ', 'd', 'a', 'g']], .seqs [.lit ['o', 'o', 'r', ' '], .number, .lit [' ', 'm', 'i', 'n']], .seqs [.lit ['o', 'o', 'r', ' '], .number, .lit [' ', 's', 'e', 'k']], .seqs [.lit ['o', 'o', 'r', ' '], .number, .lit [' ', 'u', 'u', 'r']], .seqs [.lit ['o', 'o', 'r', ' '], .number, .lit [' ', 'm', 'd']], .seqs [.lit ['o', 'o', 'r', ' '], .number, .lit [' ', 'w']]]), .eos]),
  knownWords :=
   [['h', 'i', 'e', 'r', 'd', 'i', 'e', ' ', 'm', 'i', 'n', 'u', 'u', 't'], ['v', 'o', 'l', 'g', 'e', 'n', 'd', 'e', ' ', 'm', 'a', 'a', 'n', 'd'], ['v', 'e', 'r', 'l', 'e', 'd', 'e', ' ', 'm', 'a', 'a', 'n', 'd'], ['v', 'o', 'l', 'g', 'e', 'n', 'd', 'e', ' ', 'j', 'a', 'a', 'r'], ['v', 'o', 'l', 'g', 'e', 'n', 'd', 'e', ' ', 'w', 'e', 'e', 'k'], ['h', 'i', 'e', 'r', 'd', 'i', 'e', ' ', 'j', 'a', 'a', 'r'], ['v', 'a', 'n', 'd', 'e', 'e', 's', 'm', 'a', 'a', 'n', 'd'], ['v', 'e', 'r', 'l', 'e', 'd', 'e', ' ', 'j', 'a', 'a', 'r'], ['v', 'e', 'r', 'l', 'e', 'd', 'e', ' ', 'w', 'e', 'e', 'k'], ['h', 'i', 'e', 'r', 'd', 'i', 'e', ' ', 'u', 'u', 'r'], ['v', 'a', 'n', 'd', 'e', 'e', 's', 'w', 'e', 'e', 'k'], ['d', 'o', 'n', 'd', 'e', 'r', 'd', 'a', 'g'], ['f', 'e', 'b', 'r', 'u', 'a', 'r', 'i', 'e'], ['s', 'e', 'p', 't', 'e', 'm', 'b', 'e', 'r'], ['a', 'u', 'g', 'u', 's', 't', 'u', 's'], ['d', 'e', 's', 'e', 'm', 'b', 'e', 'r'], ['j', 'a', 'n', 'u', 'a', 'r', 'i', 'e'], ['n', 'o', 'v', 'e', 'm', 'b', 'e', 'r'], ['s', 'a', 't', 'e', 'r', 'd', 'a', 'g'], ['w', 'o', 'e', 'n', 's', 'd', 'a', 'g'], ['d', 'i', 'n', 's', 'd', 'a', 'g'], ['m', 'a', 'a', 'n', 'd', 'a', 'g'], ['o', 'k', 't', 'o', 'b', 'e', 'r'], ['s', 'e', 'k', 'o', 'n', 'd', 'e'], ['g', 'i', 's', 't', 'e', 'r'], ['m', 'i', 'n', 'u', 'u', 't'], ['s', 'o', 'n', 'd', 'a', 'g'], ['v', 'a', 'n', 'd', 'a', 'g'], ['v', 'r', 'y', 'd', 'a', 'g'], ['a', 'p', 'r', 'i', 'l'], ['j', 'u', 'l', 'i', 'e'], ['j', 'u', 'n', 'i', 'e'], ['m', 'a', 'a', 'n', 'd'], ['m', 'a', 'a', 'r', 't'], ['j', 'a', 'a', 'r'], ['m', 'o', 'r', 'e'], ['w', 'e', 'e', 'k'], ['a', 'p', 'r'], ['a', 'u', 'g'], ['d', 'a', 'g'], ['d', 'e', 's'], ['f', 'e', 'b'], ['g', 'm', 't'], ['j', 'a', 'n'], ['j', 'u', 'l'], ['j', 'u', 'n'], ['m', 'e', 'i'], ['m', 'i', 'n'], ['m', 'r', 't'], ['n', 'o', 'u'], ['n', 'o', 'v'], ['o', 'k', 't'], ['s', 'e', 'k'], ['s', 'e', 'p'], ['u', 't', 'c'], ['u', 'u', 'r'], ['a', 'm'], ['d', 'i'], ['d', 'o'], ['m', 'a'], ['m', 'd'], ['n', 'm'], ['p', 'm'], ['s', 'a'], ['s', 'o'], ['v', 'm'], ['v', 'r'], ['w', 'k'], ['w', 'o'], [' '], ['\''], ['+'], [','], ['-'], ['.'], ['/'], [':'], [';'], ['@'], ['['], [']'], ['d'], ['j'], ['m'], ['s'], ['u'], ['z'], ['|']] }

/-- internal/data/af.go: `af_NA_Locale`. -/
def af_NALang : LangData := af_NADict

/-- internal/data/agq.go: `agq_Locale`. -/
def agqLang : LangData := { agqDict with
  knownWords :=
   [['n', 'd', 'z', 'ɔ', 'ŋ', 'ɔ', 't', 'ɨ', 'f', 'ʉ', 'g', 'h', 'a', 'd', 'z', 'u', 'g', 'h', 'u'], ['n', 'd', 'z', 'ɔ', 'ŋ', 'ɔ', 'c', 'h', 'w', 'a', 'ʔ', 'a', 'k', 'a', 'a', ' ', 'w', 'o'], ['n', 'd', 'z', 'ɔ', 'ŋ', 'ɔ', 'g', 'h', 'u', 'u', 'w', 'e', 'l', 'ɔ', 'm'], ['n', 'd', 'z', 'ɔ', 'ŋ', 'ɔ', 't', 'a', 'a', 'f', 'ʉ', 'g', 'h', 'a'], ['n', 'd', 'z', 'ɔ', 'ŋ', 'ɔ', 't', 'ɨ', 'd', 'ʉ', 'g', 'h', 'a'], ['n', 'd', 'z', 'ɔ', 'ŋ', 'ɔ', 'k', 'w', 'i', 'f', 'ɔ', 'e'], ['n', 'd', 'z', 'ɔ', 'ŋ', 'ɔ', 'n', 'z', 'u', 'g', 'h', 'o'], ['t', 's', 'u', 'ʔ', 'n', 'd', 'z', 'ɨ', 'k', 'ɔ', 'ʔ', 'ɔ'], ['n', 'd', 'z', 'ɔ', 'ŋ', 'ɔ', 'd', 'u', 'm', 'l', 'o'], ['n', 'd', 'z', 'ɔ', 'ŋ', 'ɔ', 'k', 'ɨ', 'z', 'u', 'ʔ'], ['t', 'h', 'i', 's', ' ', 'm', 'i', 'n', 'u', 't', 'e'], ['l', 'a', 's', 't', ' ', 'm', 'o', 'n', 't', 'h'], ['n', 'd', 'z', 'ɔ', 'ŋ', 'e', 'f', 'w', 'o', 'o'], ['n', 'e', 'x', 't', ' ', 'm', 'o', 'n', 't', 'h'], ['t', 'h', 'i', 's', ' ', 'm', 'o', 'n', 't', 'h'], ['t', 's', 'u', 'ʔ', 'u', 't', 'ɔ', 'm', 'l', 'o'], ['l', 'a', 's', 't', ' ', 'w', 'e', 'e', 'k'], ['l', 'a', 's', 't', ' ', 'y', 'e', 'a', 'r'], ['n', 'd', 'z', 'ɔ', 'ŋ', 'e', 's', 'e', 'e'], ['n', 'd', 'z', 'ɔ', 'ŋ', 'ɔ', 'n', 'u', 'm'], ['n', 'e', 'x', 't', ' ', 'w', 'e', 'e', 'k'], ['n', 'e', 'x', 't', ' ', 'y', 'e', 'a', 'r'], ['t', 'h', 'i', 's', ' ', 'h', 'o', 'u', 'r'], ['t', 'h', 'i', 's', ' ', 'w', 'e', 'e', 'k'], ['t', 'h', 'i', 's', ' ', 'y', 'e', 'a', 'r'], ['t', 's', 'u', 'ʔ', 'u', 'g', 'h', 'ɔ', 'e'], ['t', 's', 'u', 'ʔ', 'u', 'g', 'h', 'ɨ', 'm'], ['t', 's', 'u', 'ʔ', 'n', 't', 's', 'ɨ'], ['t', 's', 'u', 'ʔ', 'u', 'k', 'p', 'a'], ['t', 's', 'u', 'ʔ', 'u', 'm', 'e'], ['a', ' ', 'z', 'u', 'ɛ', 'ɛ'], ['t', 's', 'ʉ', 't', 's', 'ʉ'], ['k', 'ɨ', 'n', 'u', 'm'], ['n', 'd', 'z', 'ɔ', 'ŋ'], ['s', 'ɛ', 'k', 'ɔ', 'n'], ['u', 't', 's', 'u', 'ʔ'], ['e', 'w', 'ɨ', 'n'], ['m', 'e', 'n', 'e'], ['d', 'u', 'm'], ['d', 'z', 'k'], ['d', 'z', 'u'], ['f', 'w', 'o'], ['f', 'ɔ', 'e'], ['g', 'h', 'ɔ'], ['g', 'h', 'ɨ'], ['g', 'm', 't'], ['k', 'a', 'a'], ['k', 'p', 'a'], ['k', 'ɨ', 'z'], ['l', 'ɔ', 'm'], ['n', 'o', 'w'], ['n', 't', 's'], ['n', 'u', 'm'], ['n', 'z', 'u'], ['s', 'e', 'e'], ['t', 'a', 'a'], ['t', 'a', 'm'], ['t', 'ɔ', 'm'], ['t', 'ɨ', 'd'], ['u', 'm', 'e'], ['u', 't', 'c'], ['a', 'g'], ['a', 'k'], ['a', 'm'], ['n', 'ɛ'], ['p', 'm'], [' '], ['\''], ['+'], [','], ['-'], ['.'], ['/'], [':'], [';'], ['@'], ['['], [']'], ['z'], ['|']] }

/-- internal/data/ak.go: `ak_Locale`. -/
def akLang : LangData := { akDict with
  knownWords :=
   [['e', 's', 'u', 's', 'o', 'w', ' ', 'a', 'k', 'e', 't', 's', 'e', 'a', 'b', 'a', '-', 'k', 'ɔ', 't', 'ɔ', 'n', 'i', 'm', 'b', 'a'], ['o', 'b', 'i', 'r', 'a', 'd', 'e', '-', 'a', 'y', 'ɛ', 'w', 'o', 'h', 'o', 'm', 'u', 'm', 'u'], ['a', 'y', 'ɛ', 'w', 'o', 'h', 'o', '-', 'k', 'i', 't', 'a', 'w', 'o', 'n', 's', 'a'], ['e', 'b', 'ɔ', 'b', 'i', 'r', 'a', '-', 'o', 'f', 'o', 'r', 'i', 's', 'u', 'o'], ['k', 'w', 'a', 'k', 'w', 'a', 'r', '-', 'ɔ', 'g', 'y', 'e', 'f', 'u', 'o'], ['ɔ', 'b', 'e', 'r', 'ɛ', 'f', 'ɛ', 'w', '-', 'o', 'b', 'u', 'b', 'u', 'o'], ['d', 'i', 'f', 'u', 'u', '-', 'ɔ', 's', 'a', 'n', 'd', 'a', 'a'], ['m', 'u', 'm', 'u', '-', 'ɔ', 'p', 'ɛ', 'n', 'i', 'm', 'b', 'a'], ['ɔ', 'b', 'ɛ', 's', 'ɛ', '-', 'a', 'h', 'i', 'n', 'i', 'm', 'e'], ['s', 'a', 'n', 'd', 'a', '-', 'ɔ', 'p', 'ɛ', 'p', 'ɔ', 'n'], ['e', 'b', 'ɔ', 'w', '-', 'ɔ', 'b', 'e', 'n', 'e', 'm'], ['t', 'h', 'i', 's', ' ', 'm', 'i', 'n', 'u', 't', 'e'], ['f', 'a', 'n', 'k', 'w', 'a', '-', 'ɛ', 'b', 'ɔ'], ['l', 'a', 's', 't', ' ', 'm', 'o', 'n', 't', 'h'], ['n', 'e', 'x', 't', ' ', 'm', 'o', 'n', 't', 'h'], ['t', 'h', 'i', 's', ' ', 'm', 'o', 'n', 't', 'h'], ['l', 'a', 's', 't', ' ', 'w', 'e', 'e', 'k'], ['l', 'a', 's', 't', ' ', 'y', 'e', 'a', 'r'], ['n', 'e', 'x', 't', ' ', 'w', 'e', 'e', 'k'], ['n', 'e', 'x', 't', ' ', 'y', 'e', 'a', 'r'], ['t', 'h', 'i', 's', ' ', 'h', 'o', 'u', 'r'], ['t', 'h', 'i', 's', ' ', 'w', 'e', 'e', 'k'], ['t', 'h', 'i', 's', ' ', 'y', 'e', 'a', 'r'], ['m', 'e', 'm', 'e', 'n', 'e', 'd', 'a'], ['d', 'ɔ', 'n', 'h', 'w', 'e', 'r'], ['k', 'w', 'e', 's', 'i', 'd', 'a'], ['b', 'e', 'n', 'a', 'd', 'a'], ['b', 'o', 's', 'o', 'm', 'e'], ['d', 'w', 'o', 'w', 'd', 'a'], ['s', 'ɛ', 'k', 'ɛ', 'n', 'd'], ['w', 'u', 'k', 'u', 'd', 'a'], ['ɔ', 'k', 'y', 'e', 'n', 'a'], ['d', 'a', 'p', 'ɛ', 'n'], ['n', 'd', 'e', 'd', 'a'], ['y', 'a', 'w', 'd', 'a'], ['f', 'i', 'd', 'a'], ['s', 'e', 'm', 'a'], ['a', '-', 'k'], ['a', 'f', 'e'], ['b', 'e', 'n'], ['d', '-', 'ɔ'], ['d', 'w', 'o'], ['e', '-', 'k'], ['e', '-', 'o'], ['e', '-', 'ɔ'], ['f', '-', 'ɛ'], ['f', 'i', 'a'], ['g', 'm', 't'], ['k', '-', 'ɔ'], ['k', 'w', 'e'], ['m', '-', 'ɔ'], ['m', 'e', 'm'], ['n', 'd', 'ɛ'], ['n', 'o', 'w'], ['o', '-', 'a'], ['s', '-', 'ɔ'], ['u', 't', 'c'], ['w', 'u', 'k'], ['y', 'a', 'w'], ['ɔ', '-', 'a'], ['ɔ', '-', 'o'], ['a', 'm'], ['a', 'n'], ['d', 'a'], ['e', 'w'], ['p', 'm'], [' '], ['\''], ['+'], [','], ['-'], ['.'], ['/'], [':'], [';'], ['@'], ['['], [']'], ['z'], ['|']] }

/-- internal/data/am.go: `am_Locale`. -/
def amLang : LangData := { amDict with
  relativeRegexes :=
   [(.seqs [.lit ['በ'], .grp 1 (.number), .lit [' ', 'ሰ', 'ከ', 'ን', 'ዶ', 'ች', ' ', 'ው', 'ስ', 'ጥ']], [.lit ['i', 'n', ' '], .ref 1, .lit [' ', 's', 'e', 'c', 'o', 'n', 'd']]),
    (.seqs [.lit ['በ'], .grp 1 (.number), .lit [' ', 'ሳ', 'ም', 'ን', 'ታ', 'ት', ' ', 'ው', 'ስ', 'ጥ']], [.lit ['i', 'n', ' '], .ref 1, .lit [' ', 'w', 'e', 'e', 'k']]),
    (.seqs [.lit ['በ'], .grp 1 (.number), .lit [' ', 'ደ', 'ቂ', 'ቃ', 'ዎ', 'ች', ' ', 'ው', 'ስ', 'ጥ']], [.lit ['i', 'n', ' '], .ref 1, .lit [' ', 'm', 'i', 'n', 'u', 't', 'e']]),
    (.seqs [.lit ['ከ'], .grp 1 (.number), .lit [' ', 'ሰ', 'ከ', 'ን', 'ዶ', 'ች', ' ', 'በ', 'ፊ', 'ት']], [.ref 1, .lit [' ', 's', 'e', 'c', 'o', 'n', 'd', ' ', 'a', 'g', 'o']]),
    (.seqs [.lit ['ከ'], .grp 1 (.number), .lit [' ', 'ሳ', 'ም', 'ን', 'ታ', 'ት', ' ', 'በ', 'ፊ', 'ት']], [.ref 1, .lit [' ', 'w', 'e', 'e', 'k', ' ', 'a', 'g', 'o']]),
    (.seqs [.lit ['ከ'], .grp 1 (.number), .lit [' ', 'ደ', 'ቂ', 'ቃ', 'ዎ', 'ች', ' ', 'በ', 'ፊ', 'ት']], [.ref 1, .lit [' ', 'm', 'i', 'n', 'u', 't', 'e', ' ', 'a', 'g', 'o']]),
    (.seqs [.lit ['በ'], .grp 1 (.number), .lit [' ', 'ሰ', 'ከ', 'ን', 'ድ', ' ', 'ው', 'ስ', 'ጥ']], [.lit ['i', 'n', ' '], .ref 1, .lit [' ', 's', 'e', 'c', 'o', 'n', 'd']]),
    (.seqs [.lit ['በ'], .grp 1 (.number), .lit [' ', 'ሰ', 'ዓ', 'ቶ', 'ች', ' ', 'ው', 'ስ', 'ጥ']], [.lit ['i', 'n', ' '], .ref 1, .lit [' ', 'h', 'o', 'u', 'r']]),
    (.seqs [.lit ['በ'], .grp 1 (.number), .lit [' ', 'ሳ', 'ም', 'ን', 'ት', ' ', 'ው', 'ስ', 'ጥ']], [.lit ['i', 'n', ' '], .ref 1, .lit [' ', 'w', 'e', 'e', 'k']]),
    (.seqs [.lit ['በ'], .grp 1 (.number), .lit [' ', 'ዓ', 'መ', 'ታ', 'ት', ' ', 'ው', 'ስ', 'ጥ']], [.lit ['i', 'n', ' '], .ref 1, .lit [' ', 'y', 'e', 'a', 'r']]),
    (.seqs [.lit ['ከ'], .grp 1 (.number), .lit [' ', 'ሰ', 'ከ', 'ን', 'ድ', ' ', 'በ', 'ፊ', 'ት']], [.ref 1, .lit [' ', 's', 'e', 'c', 'o', 'n', 'd', ' ', 'a', 'g', 'o']]),
    (.seqs [.lit ['ከ'], .grp 1 (.number), .lit [' ', 'ሰ', 'ዓ', 'ቶ', 'ች', ' ', 'በ', 'ፊ', 'ት']], [.ref 1, .lit [' ', 'h', 'o', 'u', 'r', ' ', 'a', 'g', 'o']]),
    (.seqs [.lit ['ከ'], .grp 1 (.number), .lit [' ', 'ሳ', 'ም', 'ን', 'ት', ' ', 'በ', 'ፊ', 'ት']], [.ref 1, .lit [' ', 'w', 'e', 'e', 'k', ' ', 'a', 'g', 'o']]),
    (.seqs [.lit ['ከ'], .grp 1 (.number), .lit [' ', 'ዓ', 'መ', 'ታ', 'ት', ' ', 'በ', 'ፊ', 'ት']], [.ref 1, .lit [' ', 'y', 'e', 'a', 'r', ' ', 'a', 'g', 'o']]),
    (.seqs [.lit ['በ'], .grp 1 (.number), .lit [' ', 'ሰ', 'ዓ', 'ት', ' ', 'ው', 'ስ', 'ጥ']], [.lit ['i', 'n', ' '], .ref 1, .lit [' ', 'h', 'o', 'u', 'r']]),
    (.seqs [.lit ['በ'], .grp 1 (.number), .lit [' ', 'ቀ', 'ና', 'ት', ' ', 'ው', 'ስ', 'ጥ']], [.lit ['i', 'n', ' '], .ref 1, .lit [' ', 'd', 'a', 'y']]),
    (.seqs [.lit ['በ'], .grp 1 (.number), .lit [' ', 'ቀ', 'ኖ', 'ች', ' ', 'ው', 'ስ', 'ጥ']], [.lit ['i', 'n', ' '], .ref 1, .lit [' ', 'd', 'a', 'y']]),
    (.seqs [.lit ['በ'], .grp 1 (.number), .lit [' ', 'ወ', 'ራ', 'ት', ' ', 'ው', 'ስ', 'ጥ']], [.lit ['i', 'n', ' '], .ref 1, .lit [' ', 'm', 'o', 'n', 't', 'h']]),
    (.seqs [.lit ['በ'], .grp 1 (.number), .lit [' ', 'ደ', 'ቂ', 'ቃ', ' ', 'ው', 'ስ', 'ጥ']], [.lit ['i', 'n', ' '], .ref 1, .lit [' ', 'm', 'i', 'n', 'u', 't', 'e']]),
    (.seqs [.lit ['ከ', ' '], .grp 1 (.number), .lit [' ', 'ቀ', 'ን', ' ', 'በ', 'ፊ', 'ት']], [.ref 1, .lit [' ', 'd', 'a', 'y', ' ', 'a', 'g', 'o']]),
    (.seqs [.lit ['ከ'], .grp 1 (.number), .lit [' ', 'ሰ', 'ዓ', 'ት', ' ', 'በ', 'ፊ', 'ት']], [.ref 1, .lit [' ', 'h', 'o', 'u', 'r', ' ', 'a', 'g', 'o']]),
    (.seqs [.lit ['ከ'], .grp 1 (.number), .lit [' ', 'ቀ', 'ና', 'ት', ' ', 'በ', 'ፊ', 'ት']], [.ref 1, .lit [' ', 'd', 'a', 'y', ' ', 'a', 'g', 'o']]),
    (.seqs [.lit ['ከ'], .grp 1 (.number), .lit [' ', 'ቀ', 'ኖ', 'ች', ' ', 'በ', 'ፊ', 'ት']], [.ref 1, .lit [' ', 'd', 'a', 'y', ' ', 'a', 'g', 'o']]),
    (.seqs [.lit ['ከ'], .grp 1 (.number), .lit [' ', 'ወ', 'ራ', 'ት', ' ', 'በ', 'ፊ', 'ት']], [.ref 1, .lit [' ', 'm', 'o', 'n', 't', 'h', ' ', 'a', 'g', 'o']]),
    (.seqs [.lit ['ከ'], .grp 1 (.number), .lit [' ', 'ዓ', 'መ', 'ት', ' ', 'በ', 'ፊ', 'ት']], [.ref 1, .lit [' ', 'y', 'e', 'a', 'r', ' ', 'a', 'g', 'o']]),
    (.seqs [.lit ['ከ'], .grp 1 (.number), .lit [' ', 'ደ', 'ቂ', 'ቃ', ' ', 'በ', 'ፊ', 'ት']], [.ref 1, .lit [' ', 'm', 'i', 'n', 'u', 't', 'e', ' ', 'a', 'g', 'o']]),
    (.seqs [.lit ['በ'], .grp 1 (.number), .lit [' ', 'ቀ', 'ን', ' ', 'ው', 'ስ', 'ጥ']], [.lit ['i', 'n', ' '], .ref 1, .lit [' ', 'd', 'a', 'y']]),
    (.seqs [.lit ['በ'], .grp 1 (.number), .lit [' ', 'ወ', 'ር', ' ', 'ው', 'ስ', 'ጥ']], [.lit ['i', 'n', ' '], .ref 1, .lit [' ', 'm', 'o', 'n', 't', 'h']]),
    (.seqs [.lit ['ከ'], .grp 1 (.number), .lit [' ', 'ቀ', 'ን', ' ', 'በ', 'ፊ', 'ት']], [.ref 1, .lit [' ', 'd', 'a', 'y', ' ', 'a', 'g', 'o']]),
    (.seqs [.lit ['ከ'], .grp 1 (.number), .lit [' ', 'ወ', 'ር', ' ', 'በ', 'ፊ', 'ት']], [.ref 1, .lit [' ', 'm', 'o', 'n', 't', 'h', ' ', 'a', 'g', 'o']])],
  rxCombined := some (.seqs [.grp 1 (.alts [.bos, .cls true [.letter, .mark, .digit], .lit ['_']]), .grp 2 (.alts [.seqs [.lit ['በ'], .number, .lit [' ', 'ሰ', 'ከ', 'ን', 'ዶ', 'ች', ' ', 'ው', 'ስ', 'ጥ']], .seqs [.lit ['በ'], .number, .lit [' ', 'ሳ', 'ም', 'ን', 'ታ', 'ት', ' ', 'ው', 'ስ', 'ጥ']], .seqs [.lit ['በ'], .number, .lit [' ', 'ደ', 'ቂ', 'ቃ', 'ዎ', 'ች', ' ', 'ው', 'ስ', 'ጥ']], .seqs [.lit ['ከ'], .number, .lit [' ', 'ሰ', 'ከ', 'ን', 'ዶ', 'ች', ' ', 'በ', 'ፊ', 'ት']], .seqs [.lit ['ከ'], .number, .lit [' ', 'ሳ', 'ም', 'ን', 'ታ', 'ት', ' ', 'በ', 'ፊ', 'ት']], .seqs [.lit ['ከ'], .number, .lit [' ', 'ደ', 'ቂ', 'ቃ', 'ዎ', 'ች', ' ', 'በ', 'ፊ', 'ት']], .seqs [.lit ['በ'], .number, .lit [' ', 'ሰ', 'ከ', 'ን', 'ድ', ' ', 'ው', 'ስ', 'ጥ']], .seqs [.lit ['በ'], .number, .lit [' ', 'ሰ', 'ዓ', 'ቶ', 'ች', ' ', 'ው', 'ስ', 'ጥ']], .seqs [.lit ['በ'], .number, .lit [' ', 'ሳ', 'ም', 'ን', 'ት', ' ', 'ው', 'ስ', 'ጥ']], .seqs [.lit ['በ'], .number, .lit [' ', 'ዓ', 'መ', 'ታ', 'ት', ' ', 'ው', 'ስ', 'ጥ']], .seqs [.lit ['ከ'], .number, .lit [' ', 'ሰ', 'ከ', 'ን', 'ድ', ' ', 'በ', 'ፊ', 'ት']], .seqs [.lit ['ከ'], .number, .lit [' ', 'ሰ', 'ዓ', 'ቶ', 'ች', ' ', 'በ', 'ፊ', 'ት']], .seqs [.lit ['ከ'], .number, .lit [' ', 'ሳ', 'ም', 'ን', 'ት', ' ', 'በ', 'ፊ', 'ት']], .seqs [.lit ['ከ'], .number, .lit [' ', 'ዓ', 'መ', 'ታ', 'ት', ' ', 'በ', 'ፊ', 'ት']], .seqs [.lit ['በ'], .number, .lit [' ', 'ሰ', 'ዓ', 'ት', ' ', 'ው', 'ስ', 'ጥ']], .seqs [.lit ['በ'], .number, .lit [' ', 'ቀ', 'ና', 'ት', ' ', 'ው', 'ስ', 'ጥ']], .seqs [.lit ['በ'], .number, .lit [' ', 'ቀ', 'ኖ', 'ች', ' ', 'ው', 'ስ', 'ጥ']], .seqs [.lit ['በ'], .number, .lit [' ', 'ወ', 'ራ', 'ት', ' ', 'ው', 'ስ', 'ጥ']], .seqs [.lit ['በ'], .number, .lit [' ', 'ደ', 'ቂ', 'ቃ', ' ', 'ው', 'ስ', 'ጥ']], .seqs [.lit ['ከ', ' '], .number, .lit [' ', 'ቀ', 'ን', ' ', 'በ', 'ፊ', 'ት']], .seqs [.lit ['ከ'], .number, .lit [' ', 'ሰ', 'ዓ', 'ት', ' ', 'በ', 'ፊ', 'ት']], .seqs [.lit ['ከ'], .number, .lit [' ', 'ቀ', 'ና', 'ት', ' ', 'በ', 'ፊ', 'ት']], .seqs [.lit ['ከ'], .number, .lit [' ', 'ቀ', 'ኖ', 'ች', ' ', 'በ', 'ፊ', 'ት']], .seqs [.lit ['ከ'], .number, .lit [' ', 'ወ', 'ራ', 'ት', ' ', 'በ', 'ፊ', 'ት']], .seqs [.lit ['ከ'], .number, .lit [' ', 'ዓ', 'መ', 'ት', ' ', 'በ', 'ፊ', 'ት']], .seqs [.lit ['ከ'], .number, .lit [' ', 'ደ', 'ቂ', 'ቃ', ' ', 'በ', 'ፊ', 'ት']], .seqs [.lit ['በ'], .number, .lit [' ', 'ቀ', 'ን', ' ', 'ው', 'ስ', 'ጥ']], .seqs [.lit ['በ'], .number, .lit [' ', 'ወ', 'ር', ' ', 'ው', 'ስ', 'ጥ']], .seqs [.lit ['ከ'], .number, .lit [' ', 'ቀ', 'ን', ' ', 'በ', 'ፊ', 'ት']], .seqs [.lit ['ከ'], .number, .lit [' ', 'ወ', 'ር', ' ', 'በ', 'ፊ', 'ት']]]), .grp 3 (.alts [.eos, .cls true [.letter, .mark, .digit], .lit ['_']])], 3),
  rxExact := some (.seqs [.bos, .grp 1 (.alts [.seqs [.lit ['በ'], .number, .lit [' ', 'ሰ', 'ከ', 'ን', 'ዶ', 'ች', ' ', 'ው', 'ስ', 'ጥ']], .seqs [.lit ['በ'], .number, .lit [' ', 'ሳ', 'ም', 'ን', 'ታ', 'ት', ' ', 'ው', 'ስ', 'ጥ']], .seqs [.lit ['በ'], .number, .lit [' ', 'ደ', 'ቂ', 'ቃ', 'ዎ', 'ች', ' ', 'ው', 'ስ', 'ጥ']], .seqs [.lit ['ከ'], .number, .lit [' ', 'ሰ', 'ከ', 'ን', 'ዶ', 'ች', ' ', 'በ', 'ፊ', 'ት']], .seqs [.lit ['ከ'], .number, .lit [' ', 'ሳ', 'ም', 'ን', 'ታ', 'ት', ' ', 'በ', 'ፊ', 'ት']], .seqs [.lit ['ከ'], .number, .lit [' ', 'ደ', 'ቂ', 'ቃ', 'ዎ', 'ች', ' ', 'በ', 'ፊ', 'ት']], .seqs [.lit ['በ'], .number, .lit [' ', 'ሰ', 'ከ', 'ን', 'ድ', ' ', 'ው', 'ስ', 'ጥ']], .seqs [.lit ['በ'], .number, .lit [' ', 'ሰ', 'ዓ', 'ቶ', 'ች', ' ', 'ው', 'ስ', 'ጥ']], .seqs [.lit ['በ'], .number, .lit [' ', 'ሳ', 'ም', 'ን', 'ት', ' ', 'ው', 'ስ', 'ጥ']], .seqs [.lit ['በ'], .number, .lit [' ', 'ዓ', 'መ', 'ታ', 'ት', ' ', 'ው', 'ስ', 'ጥ']], .seqs [.lit ['ከ'], .number, .lit [' ', 'ሰ', 'ከ', 'ን', 'ድ', ' ', 'በ', 'ፊ', 'ት']], .seqs [.lit ['ከ'], .number, .lit [' ', 'ሰ', 'ዓ', 'ቶ', 'ች', ' ', 'በ', 'ፊ', 'ት']], .seqs [.lit ['ከ'], .number, .lit [' ', 'ሳ', 'ም', 'ን', 'ት', ' ', 'በ', 'ፊ', 'ት']], .seqs [.lit ['ከ'], .number, .lit [' ', 'ዓ', 'መ', 'ታ', 'ት', ' ', 'በ', 'ፊ', 'ት']], .seqs [.lit ['በ'], .number, .lit [' ', 'ሰ', 'ዓ', 'ት', ' ', 'ው', 'ስ', 'ጥ']], .seqs [.lit ['በ'], .number, .lit [' ', 'ቀ', 'ና', 'ት', ' ', 'ው', 'ስ', 'ጥ']], .seqs [.lit ['በ'], .number, .lit [' ', 'ቀ', 'ኖ', 'ች', ' ', 'ው', 'ስ', 'ጥ']], .seqs [.lit ['በ'], .number, .lit [' ', 'ወ', 'ራ', 'ት', ' ', 'ው', 'ስ', 'ጥ']], .seqs [.lit ['በ'], .number, .lit [' ', 'ደ', 'ቂ', 'ቃ', ' ', 'ው', 'ስ', 'ጥ']], .seqs [.lit ['ከ', ' '], .number, .lit [' ', 'ቀ', 'ን', ' ', 'በ', 'ፊ', 'ት']], .seqs [.lit ['ከ'], .number, .lit [' ', 'ሰ', 'ዓ', 'ት', ' ', 'በ', 'ፊ', 'ት']], .seqs [.lit ['ከ'], .number, .lit [' ', 'ቀ', 'ና', 'ት', ' ', 'በ', 'ፊ', 'ት']], .seqs [.lit ['ከ'], .number, .lit [' ', 'ቀ', 'ኖ', 'ች', ' ', 'በ', 'ፊ', 'ት']], .seqs [.lit ['ከ'], .number, .lit [' ', 'ወ', 'ራ', 'ት', ' ', 'በ', 'ፊ', 'ት']], .seqs [.lit ['ከ'], .number, .lit [' ', 'ዓ', 'መ', 'ት', ' ', 'በ', 'ፊ', 'ት']], .seqs [.lit ['ከ'], .number, .lit [' ', 'ደ', 'ቂ', 'ቃ', ' ', 'በ', 'ፊ', 'ት']], .seqs [.lit ['በ'], .number, .lit [' ', 'ቀ', 'ን', ' ', 'ው', 'ስ', 'ጥ']], .seqs [.lit ['በ'], .number, .lit [' ', 'ወ', 'ር', ' ', 'ው', 'ስ', 'ጥ']], .seqs [.lit ['ከ'], .number, .lit [' ', 'ቀ', 'ን', ' ', 'በ', 'ፊ', 'ት']], .seqs [.lit ['ከ'], .number, .lit [' ', 'ወ', 'ር', ' ', 'በ', 'ፊ', 'ት']]]), .eos]),
  knownWords :=
   [['የ', 'ሚ', 'ቀ', 'ጥ', 'ለ', 'ው', ' ', 'ሳ', 'ም', 'ን', 'ት'], ['የ', 'ሚ', 'ቀ', 'ጥ', 'ለ', 'ው', ' ', 'ዓ', 'መ', 'ት'], ['ባ', 'ለ', 'ፈ', 'ው', ' ', 'ሳ', 'ም', 'ን', 'ት'], ['የ', 'ሚ', 'ቀ', 'ጥ', 'ለ', 'ው', ' ', 'ወ', 'ር'], ['ያ', 'ለ', 'ፈ', 'ው', ' ', 'ሳ', 'ም', 'ን', 'ት'], ['በ', 'ዚ', 'ህ', ' ', 'ሣ', 'ም', 'ን', 'ት'], ['በ', 'ዚ', 'ህ', ' ', 'ሳ', 'ም', 'ን', 'ት'], ['ያ', 'ለ', 'ፈ', 'ው', ' ', 'ዓ', 'መ', 'ት'], ['በ', 'ዚ', 'ህ', ' ', 'ዓ', 'መ', 'ት'], ['ያ', 'ለ', 'ፈ', 'ው', ' ', 'ወ', 'ር'], ['ሴ', 'ፕ', 'ቴ', 'ም', 'በ', 'ር'], ['በ', 'ዚ', 'ህ', ' ', 'ወ', 'ር'], ['ይ', 'ህ', ' ', 'ሰ', 'ዓ', 'ት'], ['ይ', 'ህ', ' ', 'ደ', 'ቂ', 'ቃ'], ['ት', 'ላ', 'ን', 'ት', 'ና'], ['ኖ', 'ቬ', 'ም', 'በ', 'ር'], ['ኦ', 'ክ', 'ቶ', 'በ', 'ር'], ['ዲ', 'ሴ', 'ም', 'በ', 'ር'], ['ጃ', 'ን', 'ዩ', 'ወ', 'ሪ'], ['ፌ', 'ብ', 'ሩ', 'ወ', 'ሪ'], ['ማ', 'ክ', 'ሰ', 'ኞ'], ['ሰ', 'ከ', 'ን', 'ድ'], ['ሳ', 'ም', 'ን', 'ት'], ['ት', 'ና', 'ን', 'ት'], ['ኤ', 'ፕ', 'ሪ', 'ል'], ['ኦ', 'ገ', 'ስ', 'ት'], ['ከ', 'ሰ', 'ዓ', 'ት'], ['g', 'm', 't'], ['u', 't', 'c'], ['ሐ', 'ሙ', 'ስ'], ['ማ', 'ር', 'ች'], ['ማ', 'ክ', 'ሰ'], ['ረ', 'ቡ', 'ዕ'], ['ሰ', 'ዓ', 'ት'], ['ሴ', 'ፕ', 'ቴ'], ['ቅ', 'ዳ', 'ሜ'], ['ኖ', 'ቬ', 'ም'], ['አ', 'ሁ', 'ን'], ['ኤ', 'ፕ', 'ሪ'], ['እ', 'ሑ', 'ድ'], ['ኦ', 'ክ', 'ቶ'], ['ኦ', 'ገ', 'ስ'], ['ዓ', 'መ', 'ት'], ['ዓ', 'ር', 'ብ'], ['ደ', 'ቂ', 'ቃ'], ['ዲ', 'ሴ', 'ም'], ['ጁ', 'ላ', 'ይ'], ['ጃ', 'ን', 'ዩ'], ['ጥ', 'ዋ', 'ት'], ['ፌ', 'ብ', 'ሩ'], ['a', 'm'], ['p', 'm'], ['ሜ', 'ይ'], ['ሰ', 'ኞ'], ['ቀ', 'ን'], ['ነ', 'ገ'], ['ወ', 'ር'], ['ዛ', 'ሬ'], ['ጁ', 'ን'], [' '], ['\''], ['+'], [','], ['-'], ['.'], ['/'], [':'], [';'], ['@'], ['['], [']'], ['z'], ['|']] }

/-- internal/data/ar.go: `ar_Locale`. -/
def arLang : LangData := { arDict with
  relativeRegexes :=
   [(.seqs [.lit ['خ', 'ل', 'ا', 'ل', ' '], .grp 1 (.number), .lit [' ', 'ا', 'س', 'ب', 'و', 'ع']], [.lit ['i', 'n', ' '], .ref 1, .lit [' ', 'w', 'e', 'e', 'k']]),
    (.seqs [.lit ['خ', 'ل', 'ا', 'ل', ' '], .grp 1 (.number), .lit [' ', 'ث', 'ا', 'ن', 'ي', 'ة']], [.lit ['i', 'n', ' '], .ref 1, .lit [' ', 's', 'e', 'c', 'o', 'n', 'd']]),
    (.seqs [.lit ['خ', 'ل', 'ا', 'ل', ' '], .grp 1 (.number), .lit [' ', 'د', 'ق', 'ي', 'ق', 'ة']], [.lit ['i', 'n', ' '], .ref 1, .lit [' ', 'm', 'i', 'n', 'u', 't', 'e']]),
    (.seqs [.lit ['خ', 'ل', 'ا', 'ل', ' '], .grp 1 (.number), .lit [' ', 'س', 'ا', 'ع', 'ة']], [.lit ['i', 'n', ' '], .ref 1, .lit [' ', 'h', 'o', 'u', 'r']]),
    (.seqs [.lit ['ق', 'ب', 'ل', ' '], .grp 1 (.number), .lit [' ', 'ا', 'س', 'ب', 'و', 'ع']], [.ref 1, .lit [' ', 'w', 'e', 'e', 'k', ' ', 'a', 'g', 'o']]),
    (.seqs [.lit ['ق', 'ب', 'ل', ' '], .grp 1 (.number), .lit [' ', 'ث', 'ا', 'ن', 'ي', 'ة']], [.ref 1, .lit [' ', 's', 'e', 'c', 'o', 'n', 'd', ' ', 'a', 'g', 'o']]),
    (.seqs [.lit ['ق', 'ب', 'ل', ' '], .grp 1 (.number), .lit [' ', 'د', 'ق', 'ي', 'ق', 'ة']], [.ref 1, .lit [' ', 'm', 'i', 'n', 'u', 't', 'e', ' ', 'a', 'g', 'o']]),
    (.seqs [.lit ['خ', 'ل', 'ا', 'ل', ' '], .grp 1 (.number), .lit [' ', 'س', 'ن', 'ة']], [.lit ['i', 'n', ' '], .ref 1, .lit [' ', 'y', 'e', 'a', 'r']]),
    (.seqs [.lit ['خ', 'ل', 'ا', 'ل', ' '], .grp 1 (.number), .lit [' ', 'ش', 'ه', 'ر']], [.lit ['i', 'n', ' '], .ref 1, .lit [' ', 'm', 'o', 'n', 't', 'h']]),
    (.seqs [.lit ['خ', 'ل', 'ا', 'ل', ' '], .grp 1 (.number), .lit [' ', 'ي', 'و', 'م']], [.lit ['i', 'n', ' '], .ref 1, .lit [' ', 'd', 'a', 'y']]),
    (.seqs [.lit ['ق', 'ب', 'ل', ' '], .grp 1 (.number), .lit [' ', 'س', 'ا', 'ع', 'ة']], [.ref 1, .lit [' ', 'h', 'o', 'u', 'r', ' ', 'a', 'g', 'o']]),
    (.seqs [.lit ['ق', 'ب', 'ل', ' '], .grp 1 (.number), .lit [' ', 'س', 'ن', 'ة']], [.ref 1, .lit [' ', 'y', 'e', 'a', 'r', ' ', 'a', 'g', 'o']]),
    (.seqs [.lit ['ق', 'ب', 'ل', ' '], .grp 1 (.number), .lit [' ', 'ش', 'ه', 'ر']], [.ref 1, .lit [' ', 'm', 'o', 'n', 't', 'h', ' ', 'a', 'g', 'o']]),
    (.seqs [.lit ['ق', 'ب', 'ل', ' '], .grp 1 (.number), .lit [' ', 'ي', 'و', 'م']], [.ref 1, .lit [' ', 'd', 'a', 'y', ' ', 'a', 'g', 'o']])],
  rxCombined := some (.seqs [.grp 1 (.alts [.bos, .cls true [.letter, .mark, .digit], .lit ['_']]), .grp 2 (.alts [.seqs [.lit ['خ', 'ل', 'ا', 'ل', ' '], .number, .lit [' ', 'ا', 'س', 'ب', 'و', 'ع']], .seqs [.lit ['خ', 'ل', 'ا', 'ل', ' '], .number, .lit [' ', 'ث', 'ا', 'ن', 'ي', 'ة']], .seqs [.lit ['خ', 'ل', 'ا', 'ل', ' '], .number, .lit [' ', 'د', 'ق', 'ي', 'ق', 'ة']], .seqs [.lit ['خ', 'ل', 'ا', 'ل', ' '], .number, .lit [' ', 'س', 'ا', 'ع', 'ة']], .seqs [.lit ['ق', 'ب', 'ل', ' '], .number, .lit [' ', 'ا', 'س', 'ب', 'و', 'ع']], .seqs [.lit ['ق', 'ب', 'ل', ' '], .number, .lit [' ', 'ث', 'ا', 'ن', 'ي', 'ة']], .seqs [.lit ['ق', 'ب', 'ل', ' '], .number, .lit [' ', 'د', 'ق', 'ي', 'ق', 'ة']], .seqs [.lit ['خ', 'ل', 'ا', 'ل', ' '], .number, .lit [' ', 'س', 'ن', 'ة']], .seqs [.lit ['خ', 'ل', 'ا', 'ل', ' '], .number, .lit [' ', 'ش', 'ه', 'ر']], .seqs [.lit ['خ', 'ل', 'ا', 'ل', ' '], .number, .lit [' ', 'ي', 'و', 'م']], .seqs [.lit ['ق', 'ب', 'ل', ' '], .number, .lit [' ', 'س', 'ا', 'ع', 'ة']], .seqs [.lit ['ق', 'ب', 'ل', ' '], .number, .lit [' ', 'س', 'ن', 'ة']], .seqs [.lit ['ق', 'ب', 'ل', ' '], .number, .lit [' ', 'ش', 'ه', 'ر']], .seqs [.lit ['ق', 'ب', 'ل', ' '], .number, .lit [' ', 'ي', 'و', 'م']]]), .grp 3 (.alts [.eos, .cls true [.letter, .mark, .digit], .lit ['_']])], 3),
  rxExact := some (.seqs [.bos, .grp 1 (.alts [.seqs [.lit ['خ', 'ل', 'ا', 'ل', ' '], .number, .lit [' ', 'ا', 'س', 'ب', 'و', 'ع']], .seqs [.lit ['خ', 'ل', 'ا', 'ل', ' '], .number, .lit [' ', 'ث', 'ا', 'ن', 'ي', 'ة']], .seqs [.lit ['خ', 'ل', 'ا', 'ل', ' '], .number, .lit [' ', 'د', 'ق', 'ي', 'ق', 'ة']], .seqs [.lit ['خ', 'ل', 'ا', 'ل', ' '], .number, .lit [' ', 'س', 'ا', 'ع', 'ة']], .seqs [.lit ['ق', 'ب', 'ل', ' '], .number, .lit [' ', 'ا', 'س', 'ب', 'و', 'ع']], .seqs [.lit ['ق', 'ب', 'ل', ' '], .number, .lit [' ', 'ث', 'ا', 'ن', 'ي', 'ة']], .seqs [.lit ['ق', 'ب', 'ل', ' '], .number, .lit [' ', 'د', 'ق', 'ي', 'ق', 'ة']], .seqs [.lit ['خ', 'ل', 'ا', 'ل', ' '], .number, .lit [' ', 'س', 'ن', 'ة']], .seqs [.lit ['خ', 'ل', 'ا', 'ل', ' '], .number, .lit [' ', 'ش', 'ه', 'ر']], .seqs [.lit ['خ', 'ل', 'ا', 'ل', ' '], .number, .lit [' ', 'ي', 'و', 'م']], .seqs [.lit ['ق', 'ب', 'ل', ' '], .number, .lit [' ', 'س', 'ا', 'ع', 'ة']], .seqs [.lit ['ق', 'ب', 'ل', ' '], .number, .lit [' ', 'س', 'ن', 'ة']], .seqs [.lit ['ق', 'ب', 'ل', ' '], .number, .lit [' ', 'ش', 'ه', 'ر']], .seqs [.lit ['ق', 'ب', 'ل', ' '], .number, .lit [' ', 'ي', 'و', 'م']]]), .eos]),
  knownWords :=
   [['ا', 'ل', 'ا', 'س', 'ب', 'و', 'ع', ' ', 'ا', 'ل', 'ق', 'ا', 'د', 'م'], ['ا', 'ل', 'ا', 'س', 'ب', 'و', 'ع', ' ', 'ا', 'ل', 'م', 'ا', 'ض', 'ي'], ['ا', 'ل', 'س', 'ا', 'ع', 'ة', ' ', 'ا', 'ل', 'ح', 'ا', 'ل', 'ي', 'ة'], ['ا', 'ل', 'س', 'ن', 'ة', ' ', 'ا', 'ل', 'ح', 'ا', 'ل', 'ي', 'ة'], ['ا', 'ل', 'س', 'ن', 'ة', ' ', 'ا', 'ل', 'ق', 'ا', 'د', 'م', 'ة'], ['ا', 'ل', 'س', 'ن', 'ة', ' ', 'ا', 'ل', 'م', 'ا', 'ض', 'ي', 'ة'], ['ا', 'ل', 'ش', 'ه', 'ر', ' ', 'ا', 'ل', 'ق', 'ا', 'د', 'م'], ['ا', 'ل', 'ش', 'ه', 'ر', ' ', 'ا', 'ل', 'م', 'ا', 'ض', 'ي'], ['ا', 'ل', 'ي', 'و', 'م', ' ', 'ا', 'ل', 'س', 'ا', 'ب', 'ق'], ['ه', 'ذ', 'ا', ' ', 'ا', 'ل', 'ا', 'س', 'ب', 'و', 'ع'], ['ه', 'ذ', 'ه', ' ', 'ا', 'ل', 'د', 'ق', 'ي', 'ق', 'ة'], ['س', 'ا', 'ع', 'ة', ' ', 'و', 'ا', 'ح', 'د', 'ة'], ['ه', 'ذ', 'ا', ' ', 'ا', 'ل', 'ش', 'ه', 'ر'], ['ا', 'ل', 'ا', 'ر', 'ب', 'ع', 'ا', 'ء'], ['ا', 'ل', 'ث', 'ل', 'ا', 'ث', 'ا', 'ء'], ['ا', 'ل', 'ا', 'ث', 'ن', 'ي', 'ن'], ['ا', 'ل', 'ا', 'س', 'ب', 'و', 'ع'], ['ا', 'ل', 'ث', 'و', 'ا', 'ن', 'ي'], ['ا', 'ل', 'د', 'ق', 'ا', 'ي', 'ق'], ['ا', 'ل', 'س', 'ا', 'ع', 'ا', 'ت'], ['ا', 'ك', 'ت', 'و', 'ب', 'ر'], ['ا', 'ل', 'ج', 'م', 'ع', 'ة'], ['ا', 'ل', 'خ', 'م', 'ي', 'س'], ['ا', 'ل', 'س', 'ا', 'ع', 'ة'], ['د', 'ي', 'س', 'م', 'ب', 'ر'], ['س', 'ا', 'ع', 'ت', 'ي', 'ن'], ['س', 'ب', 'ت', 'م', 'ب', 'ر'], ['ف', 'ب', 'ر', 'ا', 'ي', 'ر'], ['ن', 'و', 'ف', 'م', 'ب', 'ر'], ['ا', 'ب', 'ر', 'ي', 'ل'], ['ا', 'س', 'ب', 'و', 'ع'], ['ا', 'غ', 'س', 'ط', 'س'], ['ا', 'ل', 'ا', 'ح', 'د'], ['ا', 'ل', 'ا', 'م', 'س'], ['ا', 'ل', 'س', 'ب', 'ت'], ['ا', 'ل', 'س', 'ن', 'ة'], ['ا', 'ل', 'ش', 'ه', 'ر'], ['ا', 'ل', 'ي', 'و', 'م'], ['ث', 'ا', 'ن', 'ي', 'ة'], ['د', 'ق', 'ا', 'ي', 'ق'], ['د', 'ق', 'ي', 'ق', 'ة'], ['س', 'ا', 'ع', 'ا', 'ت'], ['ص', 'ب', 'ا', 'ح', 'ا'], ['ي', 'ن', 'ا', 'ي', 'ر'], ['ي', 'و', 'ل', 'ي', 'و'], ['ي', 'و', 'م', 'ي', 'ن'], ['ي', 'و', 'ن', 'ي', 'و'], ['ا', 'ل', 'ا', 'ن'], ['ا', 'ي', 'ا', 'م'], ['خ', 'ل', 'ا', 'ل'], ['س', 'ا', 'ع', 'ة'], ['م', 'ا', 'ر', 'س'], ['م', 'ا', 'ي', 'و'], ['م', 'س', 'ا', 'ء'], ['g', 'm', 't'], ['u', 't', 'c'], ['ا', 'م', 'س'], ['س', 'ن', 'ة'], ['ش', 'ه', 'ر'], ['ع', 'ا', 'م'], ['غ', 'د', 'ا'], ['م', 'ض', 'ت'], ['م', 'ن', 'ذ'], ['ي', 'و', 'م'], ['a', 'm'], ['p', 'm'], ['ف', 'ي'], ['ه', 'ـ'], [' '], ['\''], ['+'], [','], ['-'], ['.'], ['/'], [':'], [';'], ['@'], ['['], [']'], ['z'], ['|'], ['ص'], ['م']] }

/-- internal/data/ar.go: `ar_AE_Locale`. -/
def ar_AELang : LangData := { ar_AEDict with
  knownWords :=
   [['ا', 'ل', 'ا', 'س', 'ب', 'و', 'ع', ' ', 'ا', 'ل', 'ق', 'ا', 'د', 'م'], ['ا', 'ل', 'ا', 'س', 'ب', 'و', 'ع', ' ', 'ا', 'ل', 'م', 'ا', 'ض', 'ي'], ['ا', 'ل', 'س', 'ا', 'ع', 'ة', ' ', 'ا', 'ل', 'ح', 'ا', 'ل', 'ي', 'ة'], ['ا', 'ل', 'س', 'ن', 'ة', ' ', 'ا', 'ل', 'ت', 'ا', 'ل', 'ي', 'ة'], ['ا', 'ل', 'س', 'ن', 'ة', ' ', 'ا', 'ل', 'ح', 'ا', 'ل', 'ي', 'ة'], ['ا', 'ل', 'س', 'ن', 'ة', ' ', 'ا', 'ل', 'ق', 'ا', 'د', 'م', 'ة'], ['ا', 'ل', 'س', 'ن', 'ة', ' ', 'ا', 'ل', 'م', 'ا', 'ض', 'ي', 'ة'], ['ا', 'ل', 'ش', 'ه', 'ر', ' ', 'ا', 'ل', 'ق', 'ا', 'د', 'م'], ['ا', 'ل', 'ش', 'ه', 'ر', ' ', 'ا', 'ل', 'م', 'ا', 'ض', 'ي'], ['ا', 'ل', 'ي', 'و', 'م', ' ', 'ا', 'ل', 'س', 'ا', 'ب', 'ق'], ['ه', 'ذ', 'ا', ' ', 'ا', 'ل', 'ا', 'س', 'ب', 'و', 'ع'], ['ه', 'ذ', 'ه', ' ', 'ا', 'ل', 'د', 'ق', 'ي', 'ق', 'ة'], ['س', 'ا', 'ع', 'ة', ' ', 'و', 'ا', 'ح', 'د', 'ة'], ['ه', 'ذ', 'ا', ' ', 'ا', 'ل', 'ش', 'ه', 'ر'], ['ه', 'ذ', 'ه', ' ', 'ا', 'ل', 'س', 'ن', 'ة'], ['ا', 'ل', 'ا', 'ر', 'ب', 'ع', 'ا', 'ء'], ['ا', 'ل', 'ث', 'ل', 'ا', 'ث', 'ا', 'ء'], ['ا', 'ل', 'ا', 'ث', 'ن', 'ي', 'ن'], ['ا', 'ل', 'ا', 'س', 'ب', 'و', 'ع'], ['ا', 'ل', 'ث', 'و', 'ا', 'ن', 'ي'], ['ا', 'ل', 'د', 'ق', 'ا', 'ي', 'ق'], ['ا', 'ل', 'س', 'ا', 'ع', 'ا', 'ت'], ['ا', 'ك', 'ت', 'و', 'ب', 'ر'], ['ا', 'ل', 'ج', 'م', 'ع', 'ة'], ['ا', 'ل', 'خ', 'م', 'ي', 'س'], ['ا', 'ل', 'س', 'ا', 'ع', 'ة'], ['د', 'ي', 'س', 'م', 'ب', 'ر'], ['س', 'ا', 'ع', 'ت', 'ي', 'ن'], ['س', 'ب', 'ت', 'م', 'ب', 'ر'], ['ف', 'ب', 'ر', 'ا', 'ي', 'ر'], ['ن', 'و', 'ف', 'م', 'ب', 'ر'], ['ا', 'ب', 'ر', 'ي', 'ل'], ['ا', 'س', 'ب', 'و', 'ع'], ['ا', 'غ', 'س', 'ط', 'س'], ['ا', 'ل', 'ا', 'ح', 'د'], ['ا', 'ل', 'ا', 'م', 'س'], ['ا', 'ل', 'س', 'ب', 'ت'], ['ا', 'ل', 'س', 'ن', 'ة'], ['ا', 'ل', 'ش', 'ه', 'ر'], ['ا', 'ل', 'ي', 'و', 'م'], ['ث', 'ا', 'ن', 'ي', 'ة'], ['د', 'ق', 'ا', 'ي', 'ق'], ['د', 'ق', 'ي', 'ق', 'ة'], ['س', 'ا', 'ع', 'ا', 'ت'], ['ص', 'ب', 'ا', 'ح', 'ا'], ['ي', 'ن', 'ا', 'ي', 'ر'], ['ي', 'و', 'ل', 'ي', 'و'], ['ي', 'و', 'م', 'ي', 'ن'], ['ي', 'و', 'ن', 'ي', 'و'], ['ا', 'ل', 'ا', 'ن'], ['ا', 'ي', 'ا', 'م'], ['خ', 'ل', 'ا', 'ل'], ['س', 'ا', 'ع', 'ة'], ['م', 'ا', 'ر', 'س'], ['م', 'ا', 'ي', 'و'], ['م', 'س', 'ا', 'ء'], ['g', 'm', 't'], ['u', 't', 'c'], ['ا', 'م', 'س'], ['س', 'ن', 'ة'], ['ش', 'ه', 'ر'], ['ع', 'ا', 'م'], ['غ', 'د', 'ا'], ['م', 'ض', 'ت'], ['م', 'ن', 'ذ'], ['ي', 'و', 'م'], ['a', 'm'], ['p', 'm'], ['ف', 'ي'], ['ه', 'ـ'], [' '], ['\''], ['+'], [','], ['-'], ['.'], ['/'], [':'], [';'], ['@'], ['['], [']'], ['z'], ['|'], ['ص'], ['م']] }

/-- internal/data/ar.go: `ar_BH_Locale`. -/
def ar_BHLang : LangData := ar_BHDict

/-- internal/data/ar.go: `ar_DJ_Locale`. -/
def ar_DJLang : LangData := ar_DJDict

/-- internal/data/ar.go: `ar_DZ_Locale`. -/
def ar_DZLang : LangData := { ar_DZDict with
  knownWords :=
   [['ا', 'ل', 'ا', 'س', 'ب', 'و', 'ع', ' ', 'ا', 'ل', 'ق', 'ا', 'د', 'م'], ['ا', 'ل', 'ا', 'س', 'ب', 'و', 'ع', ' ', 'ا', 'ل', 'م', 'ا', 'ض', 'ي'], ['ا', 'ل', 'س', 'ا', 'ع', 'ة', ' ', 'ا', 'ل', 'ح', 'ا', 'ل', 'ي', 'ة'], ['ا', 'ل', 'س', 'ن', 'ة', ' ', 'ا', 'ل', 'ح', 'ا', 'ل', 'ي', 'ة'], ['ا', 'ل', 'س', 'ن', 'ة', ' ', 'ا', 'ل', 'ق', 'ا', 'د', 'م', 'ة'], ['ا', 'ل', 'س', 'ن', 'ة', ' ', 'ا', 'ل', 'م', 'ا', 'ض', 'ي', 'ة'], ['ا', 'ل', 'ش', 'ه', 'ر', ' ', 'ا', 'ل', 'ق', 'ا', 'د', 'م'], ['ا', 'ل', 'ش', 'ه', 'ر', ' ', 'ا', 'ل', 'م', 'ا', 'ض', 'ي'], ['ا', 'ل', 'ي', 'و', 'م', ' ', 'ا', 'ل', 'س', 'ا', 'ب', 'ق'], ['ه', 'ذ', 'ا', ' ', 'ا', 'ل', 'ا', 'س', 'ب', 'و', 'ع'], ['ه', 'ذ', 'ه', ' ', 'ا', 'ل', 'د', 'ق', 'ي', 'ق', 'ة'], ['س', 'ا', 'ع', 'ة', ' ', 'و', 'ا', 'ح', 'د', 'ة'], ['ه', 'ذ', 'ا', ' ', 'ا', 'ل', 'ش', 'ه', 'ر'], ['ا', 'ل', 'ا', 'ر', 'ب', 'ع', 'ا', 'ء'], ['ا', 'ل', 'ث', 'ل', 'ا', 'ث', 'ا', 'ء'], ['ا', 'ل', 'ا', 'ث', 'ن', 'ي', 'ن'], ['ا', 'ل', 'ا', 'س', 'ب', 'و', 'ع'], ['ا', 'ل', 'ث', 'و', 'ا', 'ن', 'ي'], ['ا', 'ل', 'د', 'ق', 'ا', 'ي', 'ق'], ['ا', 'ل', 'س', 'ا', 'ع', 'ا', 'ت'], ['ا', 'ك', 'ت', 'و', 'ب', 'ر'], ['ا', 'ل', 'ج', 'م', 'ع', 'ة'], ['ا', 'ل', 'خ', 'م', 'ي', 'س'], ['ا', 'ل', 'س', 'ا', 'ع', 'ة'], ['ج', 'و', 'ي', 'ل', 'ي', 'ة'], ['د', 'ي', 'س', 'م', 'ب', 'ر'], ['س', 'ا', 'ع', 'ت', 'ي', 'ن'], ['س', 'ب', 'ت', 'م', 'ب', 'ر'], ['ف', 'ب', 'ر', 'ا', 'ي', 'ر'], ['ن', 'و', 'ف', 'م', 'ب', 'ر'], ['ا', 'ب', 'ر', 'ي', 'ل'], ['ا', 'س', 'ب', 'و', 'ع'], ['ا', 'غ', 'س', 'ط', 'س'], ['ا', 'ف', 'ر', 'ي', 'ل'], ['ا', 'ل', 'ا', 'ح', 'د'], ['ا', 'ل', 'ا', 'م', 'س'], ['ا', 'ل', 'س', 'ب', 'ت'], ['ا', 'ل', 'س', 'ن', 'ة'], ['ا', 'ل', 'ش', 'ه', 'ر'], ['ا', 'ل', 'ي', 'و', 'م'], ['ث', 'ا', 'ن', 'ي', 'ة'], ['ج', 'ا', 'ن', 'ف', 'ي'], ['د', 'ق', 'ا', 'ي', 'ق'], ['د', 'ق', 'ي', 'ق', 'ة'], ['س', 'ا', 'ع', 'ا', 'ت'], ['ص', 'ب', 'ا', 'ح', 'ا'], ['ف', 'ي', 'ف', 'ر', 'ي'], ['ي', 'ن', 'ا', 'ي', 'ر'], ['ي', 'و', 'ل', 'ي', 'و'], ['ي', 'و', 'م', 'ي', 'ن'], ['ي', 'و', 'ن', 'ي', 'و'], ['ا', 'ل', 'ا', 'ن'], ['ا', 'ي', 'ا', 'م'], ['ج', 'و', 'ا', 'ن'], ['خ', 'ل', 'ا', 'ل'], ['س', 'ا', 'ع', 'ة'], ['م', 'ا', 'ر', 'س'], ['م', 'ا', 'ي', 'و'], ['م', 'س', 'ا', 'ء'], ['g', 'm', 't'], ['u', 't', 'c'], ['ا', 'م', 'س'], ['ا', 'و', 'ت'], ['س', 'ن', 'ة'], ['ش', 'ه', 'ر'], ['ع', 'ا', 'م'], ['غ', 'د', 'ا'], ['م', 'ا', 'ي'], ['م', 'ض', 'ت'], ['م', 'ن', 'ذ'], ['ي', 'و', 'م'], ['a', 'm'], ['p', 'm'], ['ف', 'ي'], ['ه', 'ـ'], [' '], ['\''], ['+'], [','], ['-'], ['.'], ['/'], [':'], [';'], ['@'], ['['], [']'], ['z'], ['|'], ['ص'], ['م']] }

/-- internal/data/ar.go: `ar_EG_Locale`. -/
def ar_EGLang : LangData := ar_EGDict

/-- internal/data/ar.go: `ar_EH_Locale`. -/
def ar_EHLang : LangData := ar_EHDict

/-- internal/data/ar.go: `ar_ER_Locale`. -/
def ar_ERLang : LangData := ar_ERDict

/-- internal/data/ar.go: `ar_IL_Locale`. -/
def ar_ILLang : LangData := ar_ILDict

/-- internal/data/ar.go: `ar_IQ_Locale`. -/
def ar_IQLang : LangData := { ar_IQDict with
  knownWords :=
   [['ا', 'ل', 'ا', 'س', 'ب', 'و', 'ع', ' ', 'ا', 'ل', 'ق', 'ا', 'د', 'م'], ['ا', 'ل', 'ا', 'س', 'ب', 'و', 'ع', ' ', 'ا', 'ل', 'م', 'ا', 'ض', 'ي'], ['ا', 'ل', 'س', 'ا', 'ع', 'ة', ' ', 'ا', 'ل', 'ح', 'ا', 'ل', 'ي', 'ة'], ['ا', 'ل', 'س', 'ن', 'ة', ' ', 'ا', 'ل', 'ح', 'ا', 'ل', 'ي', 'ة'], ['ا', 'ل', 'س', 'ن', 'ة', ' ', 'ا', 'ل', 'ق', 'ا', 'د', 'م', 'ة'], ['ا', 'ل', 'س', 'ن', 'ة', ' ', 'ا', 'ل', 'م', 'ا', 'ض', 'ي', 'ة'], ['ا', 'ل', 'ش', 'ه', 'ر', ' ', 'ا', 'ل', 'ق', 'ا', 'د', 'م'], ['ا', 'ل', 'ش', 'ه', 'ر', ' ', 'ا', 'ل', 'م', 'ا', 'ض', 'ي'], ['ا', 'ل', 'ي', 'و', 'م', ' ', 'ا', 'ل', 'س', 'ا', 'ب', 'ق'], ['ت', 'ش', 'ر', 'ي', 'ن', ' ', 'ا', 'ل', 'ث', 'ا', 'ن', 'ي'], ['ك', 'ا', 'ن', 'و', 'ن', ' ', 'ا', 'ل', 'ث', 'ا', 'ن', 'ي'], ['ت', 'ش', 'ر', 'ي', 'ن', ' ', 'ا', 'ل', 'ا', 'و', 'ل'], ['ت', 'ش', 'ر', 'ی', 'ن', ' ', 'ا', 'ل', 'ا', 'و', 'ل'], ['ك', 'ا', 'ن', 'و', 'ن', ' ', 'ا', 'ل', 'ا', 'و', 'ل'], ['ه', 'ذ', 'ا', ' ', 'ا', 'ل', 'ا', 'س', 'ب', 'و', 'ع'], ['ه', 'ذ', 'ه', ' ', 'ا', 'ل', 'د', 'ق', 'ي', 'ق', 'ة'], ['س', 'ا', 'ع', 'ة', ' ', 'و', 'ا', 'ح', 'د', 'ة'], ['ه', 'ذ', 'ا', ' ', 'ا', 'ل', 'ش', 'ه', 'ر'], ['ا', 'ل', 'ا', 'ر', 'ب', 'ع', 'ا', 'ء'], ['ا', 'ل', 'ث', 'ل', 'ا', 'ث', 'ا', 'ء'], ['ا', 'ل', 'ا', 'ث', 'ن', 'ي', 'ن'], ['ا', 'ل', 'ا', 'س', 'ب', 'و', 'ع'], ['ا', 'ل', 'ث', 'و', 'ا', 'ن', 'ي'], ['ا', 'ل', 'د', 'ق', 'ا', 'ي', 'ق'], ['ا', 'ل', 'س', 'ا', 'ع', 'ا', 'ت'], ['ا', 'ك', 'ت', 'و', 'ب', 'ر'], ['ا', 'ل', 'ج', 'م', 'ع', 'ة'], ['ا', 'ل', 'خ', 'م', 'ي', 'س'], ['ا', 'ل', 'س', 'ا', 'ع', 'ة'], ['ح', 'ز', 'ي', 'ر', 'ا', 'ن'], ['د', 'ي', 'س', 'م', 'ب', 'ر'], ['س', 'ا', 'ع', 'ت', 'ي', 'ن'], ['س', 'ب', 'ت', 'م', 'ب', 'ر'], ['ف', 'ب', 'ر', 'ا', 'ي', 'ر'], ['ن', 'و', 'ف', 'م', 'ب', 'ر'], ['ا', 'ب', 'ر', 'ي', 'ل'], ['ا', 'س', 'ب', 'و', 'ع'], ['ا', 'غ', 'س', 'ط', 'س'], ['ا', 'ل', 'ا', 'ح', 'د'], ['ا', 'ل', 'ا', 'م', 'س'], ['ا', 'ل', 'س', 'ب', 'ت'], ['ا', 'ل', 'س', 'ن', 'ة'], ['ا', 'ل', 'ش', 'ه', 'ر'], ['ا', 'ل', 'ي', 'و', 'م'], ['ا', 'ي', 'ل', 'و', 'ل'], ['ث', 'ا', 'ن', 'ي', 'ة'], ['د', 'ق', 'ا', 'ي', 'ق'], ['د', 'ق', 'ي', 'ق', 'ة'], ['س', 'ا', 'ع', 'ا', 'ت'], ['ص', 'ب', 'ا', 'ح', 'ا'], ['ن', 'ي', 'س', 'ا', 'ن'], ['ي', 'ن', 'ا', 'ي', 'ر'], ['ي', 'و', 'ل', 'ي', 'و'], ['ي', 'و', 'م', 'ي', 'ن'], ['ي', 'و', 'ن', 'ي', 'و'], ['ا', 'ذ', 'ا', 'ر'], ['ا', 'ل', 'ا', 'ن'], ['ا', 'ي', 'ا', 'ر'], ['ا', 'ي', 'ا', 'م'], ['ت', 'م', 'و', 'ز'], ['خ', 'ل', 'ا', 'ل'], ['س', 'ا', 'ع', 'ة'], ['ش', 'ب', 'ا', 'ط'], ['م', 'ا', 'ر', 'س'], ['م', 'ا', 'ي', 'و'], ['م', 'س', 'ا', 'ء'], ['g', 'm', 't'], ['u', 't', 'c'], ['ا', 'م', 'س'], ['س', 'ن', 'ة'], ['ش', 'ه', 'ر'], ['ع', 'ا', 'م'], ['غ', 'د', 'ا'], ['م', 'ض', 'ت'], ['م', 'ن', 'ذ'], ['ي', 'و', 'م'], ['a', 'm'], ['p', 'm'], ['ا', 'ب'], ['ف', 'ي'], ['ه', 'ـ'], [' '], ['\''], ['+'], [','], ['-'], ['.'], ['/'], [':'], [';'], ['@'], ['['], [']'], ['z'], ['|'], ['ص'], ['م']] }

/-- internal/data/ar.go: `ar_JO_Locale`. -/
def ar_JOLang : LangData := { ar_JODict with
  knownWords :=
   [['ا', 'ل', 'ا', 'س', 'ب', 'و', 'ع', ' ', 'ا', 'ل', 'ق', 'ا', 'د', 'م'], ['ا', 'ل', 'ا', 'س', 'ب', 'و', 'ع', ' ', 'ا', 'ل', 'م', 'ا', 'ض', 'ي'], ['ا', 'ل', 'س', 'ا', 'ع', 'ة', ' ', 'ا', 'ل', 'ح', 'ا', 'ل', 'ي', 'ة'], ['ا', 'ل', 'س', 'ن', 'ة', ' ', 'ا', 'ل', 'ح', 'ا', 'ل', 'ي', 'ة'], ['ا', 'ل', 'س', 'ن', 'ة', ' ', 'ا', 'ل', 'ق', 'ا', 'د', 'م', 'ة'], ['ا', 'ل', 'س', 'ن', 'ة', ' ', 'ا', 'ل', 'م', 'ا', 'ض', 'ي', 'ة'], ['ا', 'ل', 'ش', 'ه', 'ر', ' ', 'ا', 'ل', 'ق', 'ا', 'د', 'م'], ['ا', 'ل', 'ش', 'ه', 'ر', ' ', 'ا', 'ل', 'م', 'ا', 'ض', 'ي'], ['ا', 'ل', 'ي', 'و', 'م', ' ', 'ا', 'ل', 'س', 'ا', 'ب', 'ق'], ['ت', 'ش', 'ر', 'ي', 'ن', ' ', 'ا', 'ل', 'ث', 'ا', 'ن', 'ي'], ['ك', 'ا', 'ن', 'و', 'ن', ' ', 'ا', 'ل', 'ث', 'ا', 'ن', 'ي'], ['ت', 'ش', 'ر', 'ي', 'ن', ' ', 'ا', 'ل', 'ا', 'و', 'ل'], ['ك', 'ا', 'ن', 'و', 'ن', ' ', 'ا', 'ل', 'ا', 'و', 'ل'], ['ه', 'ذ', 'ا', ' ', 'ا', 'ل', 'ا', 'س', 'ب', 'و', 'ع'], ['ه', 'ذ', 'ه', ' ', 'ا', 'ل', 'د', 'ق', 'ي', 'ق', 'ة'], ['س', 'ا', 'ع', 'ة', ' ', 'و', 'ا', 'ح', 'د', 'ة'], ['ه', 'ذ', 'ا', ' ', 'ا', 'ل', 'ش', 'ه', 'ر'], ['ا', 'ل', 'ا', 'ر', 'ب', 'ع', 'ا', 'ء'], ['ا', 'ل', 'ث', 'ل', 'ا', 'ث', 'ا', 'ء'], ['ا', 'ل', 'ا', 'ث', 'ن', 'ي', 'ن'], ['ا', 'ل', 'ا', 'س', 'ب', 'و', 'ع'], ['ا', 'ل', 'ث', 'و', 'ا', 'ن', 'ي'], ['ا', 'ل', 'د', 'ق', 'ا', 'ي', 'ق'], ['ا', 'ل', 'س', 'ا', 'ع', 'ا', 'ت'], ['ا', 'ك', 'ت', 'و', 'ب', 'ر'], ['ا', 'ل', 'ج', 'م', 'ع', 'ة'], ['ا', 'ل', 'خ', 'م', 'ي', 'س'], ['ا', 'ل', 'س', 'ا', 'ع', 'ة'], ['ح', 'ز', 'ي', 'ر', 'ا', 'ن'], ['د', 'ي', 'س', 'م', 'ب', 'ر'], ['س', 'ا', 'ع', 'ت', 'ي', 'ن'], ['س', 'ب', 'ت', 'م', 'ب', 'ر'], ['ف', 'ب', 'ر', 'ا', 'ي', 'ر'], ['ن', 'و', 'ف', 'م', 'ب', 'ر'], ['ا', 'ب', 'ر', 'ي', 'ل'], ['ا', 'س', 'ب', 'و', 'ع'], ['ا', 'غ', 'س', 'ط', 'س'], ['ا', 'ل', 'ا', 'ح', 'د'], ['ا', 'ل', 'ا', 'م', 'س'], ['ا', 'ل', 'س', 'ب', 'ت'], ['ا', 'ل', 'س', 'ن', 'ة'], ['ا', 'ل', 'ش', 'ه', 'ر'], ['ا', 'ل', 'ي', 'و', 'م'], ['ا', 'ي', 'ل', 'و', 'ل'], ['ث', 'ا', 'ن', 'ي', 'ة'], ['د', 'ق', 'ا', 'ي', 'ق'], ['د', 'ق', 'ي', 'ق', 'ة'], ['س', 'ا', 'ع', 'ا', 'ت'], ['ص', 'ب', 'ا', 'ح', 'ا'], ['ن', 'ي', 'س', 'ا', 'ن'], ['ي', 'ن', 'ا', 'ي', 'ر'], ['ي', 'و', 'ل', 'ي', 'و'], ['ي', 'و', 'م', 'ي', 'ن'], ['ي', 'و', 'ن', 'ي', 'و'], ['ا', 'ذ', 'ا', 'ر'], ['ا', 'ل', 'ا', 'ن'], ['ا', 'ي', 'ا', 'ر'], ['ا', 'ي', 'ا', 'م'], ['ت', 'م', 'و', 'ز'], ['خ', 'ل', 'ا', 'ل'], ['س', 'ا', 'ع', 'ة'], ['ش', 'ب', 'ا', 'ط'], ['م', 'ا', 'ر', 'س'], ['م', 'ا', 'ي', 'و'], ['م', 'س', 'ا', 'ء'], ['g', 'm', 't'], ['u', 't', 'c'], ['ا', 'م', 'س'], ['س', 'ن', 'ة'], ['ش', 'ه', 'ر'], ['ع', 'ا', 'م'], ['غ', 'د', 'ا'], ['م', 'ض', 'ت'], ['م', 'ن', 'ذ'], ['ي', 'و', 'م'], ['a', 'm'], ['p', 'm'], ['ا', 'ب'], ['ف', 'ي'], ['ه', 'ـ'], [' '], ['\''], ['+'], [','], ['-'], ['.'], ['/'], [':'], [';'], ['@'], ['['], [']'], ['z'], ['|'], ['ص'], ['م']] }

/-- internal/data/ar.go: `ar_KM_Locale`. -/
def ar_KMLang : LangData := ar_KMDict

/-- internal/data/ar.go: `ar_KW_Locale`. -/
def ar_KWLang : LangData := ar_KWDict

/-- internal/data/ar.go: `ar_LB_Locale`. -/
def ar_LBLang : LangData := { ar_LBDict with
  knownWords :=
   [['ا', 'ل', 'ا', 'س', 'ب', 'و', 'ع', ' ', 'ا', 'ل', 'ق', 'ا', 'د', 'م'], ['ا', 'ل', 'ا', 'س', 'ب', 'و', 'ع', ' ', 'ا', 'ل', 'م', 'ا', 'ض', 'ي'], ['ا', 'ل', 'س', 'ا', 'ع', 'ة', ' ', 'ا', 'ل', 'ح', 'ا', 'ل', 'ي', 'ة'], ['ا', 'ل', 'س', 'ن', 'ة', ' ', 'ا', 'ل', 'ح', 'ا', 'ل', 'ي', 'ة'], ['ا', 'ل', 'س', 'ن', 'ة', ' ', 'ا', 'ل', 'ق', 'ا', 'د', 'م', 'ة'], ['ا', 'ل', 'س', 'ن', 'ة', ' ', 'ا', 'ل', 'م', 'ا', 'ض', 'ي', 'ة'], ['ا', 'ل', 'ش', 'ه', 'ر', ' ', 'ا', 'ل', 'ق', 'ا', 'د', 'م'], ['ا', 'ل', 'ش', 'ه', 'ر', ' ', 'ا', 'ل', 'م', 'ا', 'ض', 'ي'], ['ا', 'ل', 'ي', 'و', 'م', ' ', 'ا', 'ل', 'س', 'ا', 'ب', 'ق'], ['ت', 'ش', 'ر', 'ي', 'ن', ' ', 'ا', 'ل', 'ث', 'ا', 'ن', 'ي'], ['ك', 'ا', 'ن', 'و', 'ن', ' ', 'ا', 'ل', 'ث', 'ا', 'ن', 'ي'], ['ت', 'ش', 'ر', 'ي', 'ن', ' ', 'ا', 'ل', 'ا', 'و', 'ل'], ['ك', 'ا', 'ن', 'و', 'ن', ' ', 'ا', 'ل', 'ا', 'و', 'ل'], ['ه', 'ذ', 'ا', ' ', 'ا', 'ل', 'ا', 'س', 'ب', 'و', 'ع'], ['ه', 'ذ', 'ه', ' ', 'ا', 'ل', 'د', 'ق', 'ي', 'ق', 'ة'], ['س', 'ا', 'ع', 'ة', ' ', 'و', 'ا', 'ح', 'د', 'ة'], ['ه', 'ذ', 'ا', ' ', 'ا', 'ل', 'ش', 'ه', 'ر'], ['ا', 'ل', 'ا', 'ر', 'ب', 'ع', 'ا', 'ء'], ['ا', 'ل', 'ث', 'ل', 'ا', 'ث', 'ا', 'ء'], ['ا', 'ل', 'ا', 'ث', 'ن', 'ي', 'ن'], ['ا', 'ل', 'ا', 'س', 'ب', 'و', 'ع'], ['ا', 'ل', 'ث', 'و', 'ا', 'ن', 'ي'], ['ا', 'ل', 'د', 'ق', 'ا', 'ي', 'ق'], ['ا', 'ل', 'س', 'ا', 'ع', 'ا', 'ت'], ['ا', 'ك', 'ت', 'و', 'ب', 'ر'], ['ا', 'ل', 'ج', 'م', 'ع', 'ة'], ['ا', 'ل', 'خ', 'م', 'ي', 'س'], ['ا', 'ل', 'س', 'ا', 'ع', 'ة'], ['ح', 'ز', 'ي', 'ر', 'ا', 'ن'], ['د', 'ي', 'س', 'م', 'ب', 'ر'], ['س', 'ا', 'ع', 'ت', 'ي', 'ن'], ['س', 'ب', 'ت', 'م', 'ب', 'ر'], ['ف', 'ب', 'ر', 'ا', 'ي', 'ر'], ['ن', 'و', 'ف', 'م', 'ب', 'ر'], ['ا', 'ب', 'ر', 'ي', 'ل'], ['ا', 'س', 'ب', 'و', 'ع'], ['ا', 'غ', 'س', 'ط', 'س'], ['ا', 'ل', 'ا', 'ح', 'د'], ['ا', 'ل', 'ا', 'م', 'س'], ['ا', 'ل', 'س', 'ب', 'ت'], ['ا', 'ل', 'س', 'ن', 'ة'], ['ا', 'ل', 'ش', 'ه', 'ر'], ['ا', 'ل', 'ي', 'و', 'م'], ['ا', 'ي', 'ل', 'و', 'ل'], ['ث', 'ا', 'ن', 'ي', 'ة'], ['د', 'ق', 'ا', 'ي', 'ق'], ['د', 'ق', 'ي', 'ق', 'ة'], ['س', 'ا', 'ع', 'ا', 'ت'], ['ص', 'ب', 'ا', 'ح', 'ا'], ['ن', 'ي', 'س', 'ا', 'ن'], ['ي', 'ن', 'ا', 'ي', 'ر'], ['ي', 'و', 'ل', 'ي', 'و'], ['ي', 'و', 'م', 'ي', 'ن'], ['ي', 'و', 'ن', 'ي', 'و'], ['ا', 'ذ', 'ا', 'ر'], ['ا', 'ل', 'ا', 'ن'], ['ا', 'ي', 'ا', 'ر'], ['ا', 'ي', 'ا', 'م'], ['ت', 'م', 'و', 'ز'], ['خ', 'ل', 'ا', 'ل'], ['س', 'ا', 'ع', 'ة'], ['ش', 'ب', 'ا', 'ط'], ['م', 'ا', 'ر', 'س'], ['م', 'ا', 'ي', 'و'], ['م', 'س', 'ا', 'ء'], ['g', 'm', 't'], ['u', 't', 'c'], ['ا', 'م', 'س'], ['س', 'ن', 'ة'], ['ش', 'ه', 'ر'], ['ع', 'ا', 'م'], ['غ', 'د', 'ا'], ['م', 'ض', 'ت'], ['م', 'ن', 'ذ'], ['ي', 'و', 'م'], ['a', 'm'], ['p', 'm'], ['ا', 'ب'], ['ف', 'ي'], ['ه', 'ـ'], [' '], ['\''], ['+'], [','], ['-'], ['.'], ['/'], [':'], [';'], ['@'], ['['], [']'], ['z'], ['|'], ['ص'], ['م']] }

/-- internal/data/ar.go: `ar_LY_Locale`. -/
def ar_LYLang : LangData := ar_LYDict

/-- internal/data/ar.go: `ar_MA_Locale`. -/
def ar_MALang : LangData := { ar_MADict with
  knownWords :=
   [['ا', 'ل', 'ا', 'س', 'ب', 'و', 'ع', ' ', 'ا', 'ل', 'ق', 'ا', 'د', 'م'], ['ا', 'ل', 'ا', 'س', 'ب', 'و', 'ع', ' ', 'ا', 'ل', 'م', 'ا', 'ض', 'ي'], ['ا', 'ل', 'س', 'ا', 'ع', 'ة', ' ', 'ا', 'ل', 'ح', 'ا', 'ل', 'ي', 'ة'], ['ا', 'ل', 'س', 'ن', 'ة', ' ', 'ا', 'ل', 'ح', 'ا', 'ل', 'ي', 'ة'], ['ا', 'ل', 'س', 'ن', 'ة', ' ', 'ا', 'ل', 'ق', 'ا', 'د', 'م', 'ة'], ['ا', 'ل', 'س', 'ن', 'ة', ' ', 'ا', 'ل', 'م', 'ا', 'ض', 'ي', 'ة'], ['ا', 'ل', 'ش', 'ه', 'ر', ' ', 'ا', 'ل', 'ق', 'ا', 'د', 'م'], ['ا', 'ل', 'ش', 'ه', 'ر', ' ', 'ا', 'ل', 'م', 'ا', 'ض', 'ي'], ['ا', 'ل', 'ي', 'و', 'م', ' ', 'ا', 'ل', 'س', 'ا', 'ب', 'ق'], ['ه', 'ذ', 'ا', ' ', 'ا', 'ل', 'ا', 'س', 'ب', 'و', 'ع'], ['ه', 'ذ', 'ه', ' ', 'ا', 'ل', 'د', 'ق', 'ي', 'ق', 'ة'], ['س', 'ا', 'ع', 'ة', ' ', 'و', 'ا', 'ح', 'د', 'ة'], ['ه', 'ذ', 'ا', ' ', 'ا', 'ل', 'ش', 'ه', 'ر'], ['ا', 'ل', 'ا', 'ر', 'ب', 'ع', 'ا', 'ء'], ['ا', 'ل', 'ث', 'ل', 'ا', 'ث', 'ا', 'ء'], ['ا', 'ل', 'ا', 'ث', 'ن', 'ي', 'ن'], ['ا', 'ل', 'ا', 'س', 'ب', 'و', 'ع'], ['ا', 'ل', 'ث', 'و', 'ا', 'ن', 'ي'], ['ا', 'ل', 'د', 'ق', 'ا', 'ي', 'ق'], ['ا', 'ل', 'س', 'ا', 'ع', 'ا', 'ت'], ['ا', 'ك', 'ت', 'و', 'ب', 'ر'], ['ا', 'ل', 'ج', 'م', 'ع', 'ة'], ['ا', 'ل', 'خ', 'م', 'ي', 'س'], ['ا', 'ل', 'س', 'ا', 'ع', 'ة'], ['د', 'ي', 'س', 'م', 'ب', 'ر'], ['س', 'ا', 'ع', 'ت', 'ي', 'ن'], ['س', 'ب', 'ت', 'م', 'ب', 'ر'], ['ف', 'ب', 'ر', 'ا', 'ي', 'ر'], ['ن', 'و', 'ف', 'م', 'ب', 'ر'], ['ي', 'و', 'ل', 'ي', 'و', 'ز'], ['ا', 'ب', 'ر', 'ي', 'ل'], ['ا', 'س', 'ب', 'و', 'ع'], ['ا', 'غ', 'س', 'ط', 'س'], ['ا', 'ل', 'ا', 'ح', 'د'], ['ا', 'ل', 'ا', 'م', 'س'], ['ا', 'ل', 'س', 'ب', 'ت'], ['ا', 'ل', 'س', 'ن', 'ة'], ['ا', 'ل', 'ش', 'ه', 'ر'], ['ا', 'ل', 'ي', 'و', 'م'], ['ث', 'ا', 'ن', 'ي', 'ة'], ['د', 'ج', 'ن', 'ب', 'ر'], ['د', 'ق', 'ا', 'ي', 'ق'], ['د', 'ق', 'ي', 'ق', 'ة'], ['س', 'ا', 'ع', 'ا', 'ت'], ['ش', 'ت', 'ن', 'ب', 'ر'], ['ص', 'ب', 'ا', 'ح', 'ا'], ['ن', 'و', 'ن', 'ب', 'ر'], ['ي', 'ن', 'ا', 'ي', 'ر'], ['ي', 'و', 'ل', 'ي', 'و'], ['ي', 'و', 'م', 'ي', 'ن'], ['ي', 'و', 'ن', 'ي', 'و'], ['ا', 'ل', 'ا', 'ن'], ['ا', 'ي', 'ا', 'م'], ['خ', 'ل', 'ا', 'ل'], ['س', 'ا', 'ع', 'ة'], ['م', 'ا', 'ر', 'س'], ['م', 'ا', 'ي', 'و'], ['م', 'س', 'ا', 'ء'], ['g', 'm', 't'], ['u', 't', 'c'], ['ا', 'م', 'س'], ['س', 'ن', 'ة'], ['ش', 'ه', 'ر'], ['ع', 'ا', 'م'], ['غ', 'د', 'ا'], ['غ', 'ش', 'ت'], ['م', 'ا', 'ي'], ['م', 'ض', 'ت'], ['م', 'ن', 'ذ'], ['ي', 'و', 'م'], ['a', 'm'], ['p', 'm'], ['ف', 'ي'], ['ه', 'ـ'], [' '], ['\''], ['+'], [','], ['-'], ['.'], ['/'], [':'], [';'], ['@'], ['['], [']'], ['z'], ['|'], ['ص'], ['م']] }

/-- internal/data/ar.go: `ar_MR_Locale`. -/
def ar_MRLang : LangData := { ar_MRDict with
  knownWords :=
   [['ا', 'ل', 'ا', 'س', 'ب', 'و', 'ع', ' ', 'ا', 'ل', 'ق', 'ا', 'د', 'م'], ['ا', 'ل', 'ا', 'س', 'ب', 'و', 'ع', ' ', 'ا', 'ل', 'م', 'ا', 'ض', 'ي'], ['ا', 'ل', 'س', 'ا', 'ع', 'ة', ' ', 'ا', 'ل', 'ح', 'ا', 'ل', 'ي', 'ة'], ['ا', 'ل', 'س', 'ن', 'ة', ' ', 'ا', 'ل', 'ح', 'ا', 'ل', 'ي', 'ة'], ['ا', 'ل', 'س', 'ن', 'ة', ' ', 'ا', 'ل', 'ق', 'ا', 'د', 'م', 'ة'], ['ا', 'ل', 'س', 'ن', 'ة', ' ', 'ا', 'ل', 'م', 'ا', 'ض', 'ي', 'ة'], ['ا', 'ل', 'ش', 'ه', 'ر', ' ', 'ا', 'ل', 'ق', 'ا', 'د', 'م'], ['ا', 'ل', 'ش', 'ه', 'ر', ' ', 'ا', 'ل', 'م', 'ا', 'ض', 'ي'], ['ا', 'ل', 'ي', 'و', 'م', ' ', 'ا', 'ل', 'س', 'ا', 'ب', 'ق'], ['ه', 'ذ', 'ا', ' ', 'ا', 'ل', 'ا', 'س', 'ب', 'و', 'ع'], ['ه', 'ذ', 'ه', ' ', 'ا', 'ل', 'د', 'ق', 'ي', 'ق', 'ة'], ['س', 'ا', 'ع', 'ة', ' ', 'و', 'ا', 'ح', 'د', 'ة'], ['ه', 'ذ', 'ا', ' ', 'ا', 'ل', 'ش', 'ه', 'ر'], ['ا', 'ل', 'ا', 'ر', 'ب', 'ع', 'ا', 'ء'], ['ا', 'ل', 'ث', 'ل', 'ا', 'ث', 'ا', 'ء'], ['ا', 'ل', 'ا', 'ث', 'ن', 'ي', 'ن'], ['ا', 'ل', 'ا', 'س', 'ب', 'و', 'ع'], ['ا', 'ل', 'ث', 'و', 'ا', 'ن', 'ي'], ['ا', 'ل', 'د', 'ق', 'ا', 'ي', 'ق'], ['ا', 'ل', 'س', 'ا', 'ع', 'ا', 'ت'], ['ا', 'ك', 'ت', 'و', 'ب', 'ر'], ['ا', 'ل', 'ج', 'م', 'ع', 'ة'], ['ا', 'ل', 'خ', 'م', 'ي', 'س'], ['ا', 'ل', 'س', 'ا', 'ع', 'ة'], ['د', 'ي', 'س', 'م', 'ب', 'ر'], ['س', 'ا', 'ع', 'ت', 'ي', 'ن'], ['س', 'ب', 'ت', 'م', 'ب', 'ر'], ['ف', 'ب', 'ر', 'ا', 'ي', 'ر'], ['ن', 'و', 'ف', 'م', 'ب', 'ر'], ['ا', 'ب', 'ر', 'ي', 'ل'], ['ا', 'س', 'ب', 'و', 'ع'], ['ا', 'غ', 'س', 'ط', 'س'], ['ا', 'ل', 'ا', 'ح', 'د'], ['ا', 'ل', 'ا', 'م', 'س'], ['ا', 'ل', 'س', 'ب', 'ت'], ['ا', 'ل', 'س', 'ن', 'ة'], ['ا', 'ل', 'ش', 'ه', 'ر'], ['ا', 'ل', 'ي', 'و', 'م'], ['ث', 'ا', 'ن', 'ي', 'ة'], ['د', 'ج', 'م', 'ب', 'ر'], ['د', 'ق', 'ا', 'ي', 'ق'], ['د', 'ق', 'ي', 'ق', 'ة'], ['س', 'ا', 'ع', 'ا', 'ت'], ['ش', 'ت', 'م', 'ب', 'ر'], ['ص', 'ب', 'ا', 'ح', 'ا'], ['ي', 'ن', 'ا', 'ي', 'ر'], ['ي', 'و', 'ل', 'ي', 'و'], ['ي', 'و', 'م', 'ي', 'ن'], ['ي', 'و', 'ن', 'ي', 'و'], ['ا', 'غ', 'ش', 'ت'], ['ا', 'ل', 'ا', 'ن'], ['ا', 'ي', 'ا', 'م'], ['خ', 'ل', 'ا', 'ل'], ['س', 'ا', 'ع', 'ة'], ['م', 'ا', 'ر', 'س'], ['م', 'ا', 'ي', 'و'], ['م', 'س', 'ا', 'ء'], ['g', 'm', 't'], ['u', 't', 'c'], ['ا', 'م', 'س'], ['س', 'ن', 'ة'], ['ش', 'ه', 'ر'], ['ع', 'ا', 'م'], ['غ', 'د', 'ا'], ['م', 'ض', 'ت'], ['م', 'ن', 'ذ'], ['ي', 'و', 'م'], ['a', 'm'], ['p', 'm'], ['ف', 'ي'], ['ه', 'ـ'], [' '], ['\''], ['+'], [','], ['-'], ['.'], ['/'], [':'], [';'], ['@'], ['['], [']'], ['z'], ['|'], ['ص'], ['م']] }

/-- internal/data/ar.go: `ar_OM_Locale`. -/
def ar_OMLang : LangData := ar_OMDict

/-- internal/data/ar.go: `ar_PS_Locale`. -/
def ar_PSLang : LangData := { ar_PSDict with
  knownWords :=
   [['ا', 'ل', 'ا', 'س', 'ب', 'و', 'ع', ' ', 'ا', 'ل', 'ق', 'ا', 'د', 'م'], ['ا', 'ل', 'ا', 'س', 'ب', 'و', 'ع', ' ', 'ا', 'ل', 'م', 'ا', 'ض', 'ي'], ['ا', 'ل', 'س', 'ا', 'ع', 'ة', ' ', 'ا', 'ل', 'ح', 'ا', 'ل', 'ي', 'ة'], ['ا', 'ل', 'س', 'ن', 'ة', ' ', 'ا', 'ل', 'ح', 'ا', 'ل', 'ي', 'ة'], ['ا', 'ل', 'س', 'ن', 'ة', ' ', 'ا', 'ل', 'ق', 'ا', 'د', 'م', 'ة'], ['ا', 'ل', 'س', 'ن', 'ة', ' ', 'ا', 'ل', 'م', 'ا', 'ض', 'ي', 'ة'], ['ا', 'ل', 'ش', 'ه', 'ر', ' ', 'ا', 'ل', 'ق', 'ا', 'د', 'م'], ['ا', 'ل', 'ش', 'ه', 'ر', ' ', 'ا', 'ل', 'م', 'ا', 'ض', 'ي'], ['ا', 'ل', 'ي', 'و', 'م', ' ', 'ا', 'ل', 'س', 'ا', 'ب', 'ق'], ['ت', 'ش', 'ر', 'ي', 'ن', ' ', 'ا', 'ل', 'ث', 'ا', 'ن', 'ي'], ['ك', 'ا', 'ن', 'و', 'ن', ' ', 'ا', 'ل', 'ث', 'ا', 'ن', 'ي'], ['ت', 'ش', 'ر', 'ي', 'ن', ' ', 'ا', 'ل', 'ا', 'و', 'ل'], ['ك', 'ا', 'ن', 'و', 'ن', ' ', 'ا', 'ل', 'ا', 'و', 'ل'], ['ه', 'ذ', 'ا', ' ', 'ا', 'ل', 'ا', 'س', 'ب', 'و', 'ع'], ['ه', 'ذ', 'ه', ' ', 'ا', 'ل', 'د', 'ق', 'ي', 'ق', 'ة'], ['س', 'ا', 'ع', 'ة', ' ', 'و', 'ا', 'ح', 'د', 'ة'], ['ه', 'ذ', 'ا', ' ', 'ا', 'ل', 'ش', 'ه', 'ر'], ['ا', 'ل', 'ا', 'ر', 'ب', 'ع', 'ا', 'ء'], ['ا', 'ل', 'ث', 'ل', 'ا', 'ث', 'ا', 'ء'], ['ا', 'ل', 'ا', 'ث', 'ن', 'ي', 'ن'], ['ا', 'ل', 'ا', 'س', 'ب', 'و', 'ع'], ['ا', 'ل', 'ث', 'و', 'ا', 'ن', 'ي'], ['ا', 'ل', 'د', 'ق', 'ا', 'ي', 'ق'], ['ا', 'ل', 'س', 'ا', 'ع', 'ا', 'ت'], ['ا', 'ك', 'ت', 'و', 'ب', 'ر'], ['ا', 'ل', 'ج', 'م', 'ع', 'ة'], ['ا', 'ل', 'خ', 'م', 'ي', 'س'], ['ا', 'ل', 'س', 'ا', 'ع', 'ة'], ['ح', 'ز', 'ي', 'ر', 'ا', 'ن'], ['د', 'ي', 'س', 'م', 'ب', 'ر'], ['س', 'ا', 'ع', 'ت', 'ي', 'ن'], ['س', 'ب', 'ت', 'م', 'ب', 'ر'], ['ف', 'ب', 'ر', 'ا', 'ي', 'ر'], ['ن', 'و', 'ف', 'م', 'ب', 'ر'], ['ا', 'ب', 'ر', 'ي', 'ل'], ['ا', 'س', 'ب', 'و', 'ع'], ['ا', 'غ', 'س', 'ط', 'س'], ['ا', 'ل', 'ا', 'ح', 'د'], ['ا', 'ل', 'ا', 'م', 'س'], ['ا', 'ل', 'س', 'ب', 'ت'], ['ا', 'ل', 'س', 'ن', 'ة'], ['ا', 'ل', 'ش', 'ه', 'ر'], ['ا', 'ل', 'ي', 'و', 'م'], ['ا', 'ي', 'ل', 'و', 'ل'], ['ث', 'ا', 'ن', 'ي', 'ة'], ['د', 'ق', 'ا', 'ي', 'ق'], ['د', 'ق', 'ي', 'ق', 'ة'], ['س', 'ا', 'ع', 'ا', 'ت'], ['ص', 'ب', 'ا', 'ح', 'ا'], ['ن', 'ي', 'س', 'ا', 'ن'], ['ي', 'ن', 'ا', 'ي', 'ر'], ['ي', 'و', 'ل', 'ي', 'و'], ['ي', 'و', 'م', 'ي', 'ن'], ['ي', 'و', 'ن', 'ي', 'و'], ['ا', 'ذ', 'ا', 'ر'], ['ا', 'ل', 'ا', 'ن'], ['ا', 'ي', 'ا', 'ر'], ['ا', 'ي', 'ا', 'م'], ['ت', 'م', 'و', 'ز'], ['خ', 'ل', 'ا', 'ل'], ['س', 'ا', 'ع', 'ة'], ['ش', 'ب', 'ا', 'ط'], ['م', 'ا', 'ر', 'س'], ['م', 'ا', 'ي', 'و'], ['م', 'س', 'ا', 'ء'], ['g', 'm', 't'], ['u', 't', 'c'], ['ا', 'م', 'س'], ['س', 'ن', 'ة'], ['ش', 'ه', 'ر'], ['ع', 'ا', 'م'], ['غ', 'د', 'ا'], ['م', 'ض', 'ت'], ['م', 'ن', 'ذ'], ['ي', 'و', 'م'], ['a', 'm'], ['p', 'm'], ['ا', 'ب'], ['ف', 'ي'], ['ه', 'ـ'], [' '], ['\''], ['+'], [','], ['-'], ['.'], ['/'], [':'], [';'], ['@'], ['['], [']'], ['z'], ['|'], ['ص'], ['م']] }

/-- internal/data/ar.go: `ar_QA_Locale`. -/
def ar_QALang : LangData := ar_QADict

/-- internal/data/ar.go: `ar_SA_Locale`. -/
def ar_SALang : LangData := ar_SADict

/-- internal/data/ar.go: `ar_SD_Locale`. -/
def ar_SDLang : LangData := ar_SDDict

/-- internal/data/ar.go: `ar_SO_Locale`. -/
def ar_SOLang : LangData := ar_SODict

/-- internal/data/ar.go: `ar_SS_Locale`. -/
def ar_SSLang : LangData := ar_SSDict

/-- internal/data/ar.go: `ar_SY_Locale`. -/
def ar_SYLang : LangData := { ar_SYDict with
  knownWords :=
   [['ا', 'ل', 'ا', 'س', 'ب', 'و', 'ع', ' ', 'ا', 'ل', 'ق', 'ا', 'د', 'م'], ['ا', 'ل', 'ا', 'س', 'ب', 'و', 'ع', ' ', 'ا', 'ل', 'م', 'ا', 'ض', 'ي'], ['ا', 'ل', 'س', 'ا', 'ع', 'ة', ' ', 'ا', 'ل', 'ح', 'ا', 'ل', 'ي', 'ة'], ['ا', 'ل', 'س', 'ن', 'ة', ' ', 'ا', 'ل', 'ح', 'ا', 'ل', 'ي', 'ة'], ['ا', 'ل', 'س', 'ن', 'ة', ' ', 'ا', 'ل', 'ق', 'ا', 'د', 'م', 'ة'], ['ا', 'ل', 'س', 'ن', 'ة', ' ', 'ا', 'ل', 'م', 'ا', 'ض', 'ي', 'ة'], ['ا', 'ل', 'ش', 'ه', 'ر', ' ', 'ا', 'ل', 'ق', 'ا', 'د', 'م'], ['ا', 'ل', 'ش', 'ه', 'ر', ' ', 'ا', 'ل', 'م', 'ا', 'ض', 'ي'], ['ا', 'ل', 'ي', 'و', 'م', ' ', 'ا', 'ل', 'س', 'ا', 'ب', 'ق'], ['ت', 'ش', 'ر', 'ي', 'ن', ' ', 'ا', 'ل', 'ث', 'ا', 'ن', 'ي'], ['ك', 'ا', 'ن', 'و', 'ن', ' ', 'ا', 'ل', 'ث', 'ا', 'ن', 'ي'], ['ت', 'ش', 'ر', 'ي', 'ن', ' ', 'ا', 'ل', 'ا', 'و', 'ل'], ['ك', 'ا', 'ن', 'و', 'ن', ' ', 'ا', 'ل', 'ا', 'و', 'ل'], ['ه', 'ذ', 'ا', ' ', 'ا', 'ل', 'ا', 'س', 'ب', 'و', 'ع'], ['ه', 'ذ', 'ه', ' ', 'ا', 'ل', 'د', 'ق', 'ي', 'ق', 'ة'], ['س', 'ا', 'ع', 'ة', ' ', 'و', 'ا', 'ح', 'د', 'ة'], ['ه', 'ذ', 'ا', ' ', 'ا', 'ل', 'ش', 'ه', 'ر'], ['ا', 'ل', 'ا', 'ر', 'ب', 'ع', 'ا', 'ء'], ['ا', 'ل', 'ث', 'ل', 'ا', 'ث', 'ا', 'ء'], ['ا', 'ل', 'ا', 'ث', 'ن', 'ي', 'ن'], ['ا', 'ل', 'ا', 'س', 'ب', 'و', 'ع'], ['ا', 'ل', 'ث', 'و', 'ا', 'ن', 'ي'], ['ا', 'ل', 'د', 'ق', 'ا', 'ي', 'ق'], ['ا', 'ل', 'س', 'ا', 'ع', 'ا', 'ت'], ['ا', 'ك', 'ت', 'و', 'ب', 'ر'], ['ا', 'ل', 'ج', 'م', 'ع', 'ة'], ['ا', 'ل', 'خ', 'م', 'ي', 'س'], ['ا', 'ل', 'س', 'ا', 'ع', 'ة'], ['ح', 'ز', 'ي', 'ر', 'ا', 'ن'], ['د', 'ي', 'س', 'م', 'ب', 'ر'], ['س', 'ا', 'ع', 'ت', 'ي', 'ن'], ['س', 'ب', 'ت', 'م', 'ب', 'ر'], ['ف', 'ب', 'ر', 'ا', 'ي', 'ر'], ['ن', 'و', 'ف', 'م', 'ب', 'ر'], ['ا', 'ب', 'ر', 'ي', 'ل'], ['ا', 'س', 'ب', 'و', 'ع'], ['ا', 'غ', 'س', 'ط', 'س'], ['ا', 'ل', 'ا', 'ح', 'د'], ['ا', 'ل', 'ا', 'م', 'س'], ['ا', 'ل', 'س', 'ب', 'ت'], ['ا', 'ل', 'س', 'ن', 'ة'], ['ا', 'ل', 'ش', 'ه', 'ر'], ['ا', 'ل', 'ي', 'و', 'م'], ['ا', 'ي', 'ل', 'و', 'ل'], ['ث', 'ا', 'ن', 'ي', 'ة'], ['د', 'ق', 'ا', 'ي', 'ق'], ['د', 'ق', 'ي', 'ق', 'ة'], ['س', 'ا', 'ع', 'ا', 'ت'], ['ص', 'ب', 'ا', 'ح', 'ا'], ['ن', 'ي', 'س', 'ا', 'ن'], ['ي', 'ن', 'ا', 'ي', 'ر'], ['ي', 'و', 'ل', 'ي', 'و'], ['ي', 'و', 'م', 'ي', 'ن'], ['ي', 'و', 'ن', 'ي', 'و'], ['ا', 'ذ', 'ا', 'ر'], ['ا', 'ل', 'ا', 'ن'], ['ا', 'ي', 'ا', 'ر'], ['ا', 'ي', 'ا', 'م'], ['ت', 'م', 'و', 'ز'], ['خ', 'ل', 'ا', 'ل'], ['س', 'ا', 'ع', 'ة'], ['ش', 'ب', 'ا', 'ط'], ['م', 'ا', 'ر', 'س'], ['م', 'ا', 'ي', 'و'], ['م', 'س', 'ا', 'ء'], ['g', 'm', 't'], ['u', 't', 'c'], ['ا', 'م', 'س'], ['س', 'ن', 'ة'], ['ش', 'ه', 'ر'], ['ع', 'ا', 'م'], ['غ', 'د', 'ا'], ['م', 'ض', 'ت'], ['م', 'ن', 'ذ'], ['ي', 'و', 'م'], ['a', 'm'], ['p', 'm'], ['ا', 'ب'], ['ف', 'ي'], ['ه', 'ـ'], [' '], ['\''], ['+'], [','], ['-'], ['.'], ['/'], [':'], [';'], ['@'], ['['], [']'], ['z'], ['|'], ['ص'], ['م']] }

/-- internal/data/ar.go: `ar_TD_Locale`. -/
def ar_TDLang : LangData := ar_TDDict

/-- internal/data/ar.go: `ar_TN_Locale`. -/
def ar_TNLang : LangData := { ar_TNDict with
  knownWords :=
   [['ا', 'ل', 'ا', 'س', 'ب', 'و', 'ع', ' ', 'ا', 'ل', 'ق', 'ا', 'د', 'م'], ['ا', 'ل', 'ا', 'س', 'ب', 'و', 'ع', ' ', 'ا', 'ل', 'م', 'ا', 'ض', 'ي'], ['ا', 'ل', 'س', 'ا', 'ع', 'ة', ' ', 'ا', 'ل', 'ح', 'ا', 'ل', 'ي', 'ة'], ['ا', 'ل', 'س', 'ن', 'ة', ' ', 'ا', 'ل', 'ح', 'ا', 'ل', 'ي', 'ة'], ['ا', 'ل', 'س', 'ن', 'ة', ' ', 'ا', 'ل', 'ق', 'ا', 'د', 'م', 'ة'], ['ا', 'ل', 'س', 'ن', 'ة', ' ', 'ا', 'ل', 'م', 'ا', 'ض', 'ي', 'ة'], ['ا', 'ل', 'ش', 'ه', 'ر', ' ', 'ا', 'ل', 'ق', 'ا', 'د', 'م'], ['ا', 'ل', 'ش', 'ه', 'ر', ' ', 'ا', 'ل', 'م', 'ا', 'ض', 'ي'], ['ا', 'ل', 'ي', 'و', 'م', ' ', 'ا', 'ل', 'س', 'ا', 'ب', 'ق'], ['ه', 'ذ', 'ا', ' ', 'ا', 'ل', 'ا', 'س', 'ب', 'و', 'ع'], ['ه', 'ذ', 'ه', ' ', 'ا', 'ل', 'د', 'ق', 'ي', 'ق', 'ة'], ['س', 'ا', 'ع', 'ة', ' ', 'و', 'ا', 'ح', 'د', 'ة'], ['ه', 'ذ', 'ا', ' ', 'ا', 'ل', 'ش', 'ه', 'ر'], ['ا', 'ل', 'ا', 'ر', 'ب', 'ع', 'ا', 'ء'], ['ا', 'ل', 'ث', 'ل', 'ا', 'ث', 'ا', 'ء'], ['ا', 'ل', 'ا', 'ث', 'ن', 'ي', 'ن'], ['ا', 'ل', 'ا', 'س', 'ب', 'و', 'ع'], ['ا', 'ل', 'ث', 'و', 'ا', 'ن', 'ي'], ['ا', 'ل', 'د', 'ق', 'ا', 'ي', 'ق'], ['ا', 'ل', 'س', 'ا', 'ع', 'ا', 'ت'], ['ا', 'ك', 'ت', 'و', 'ب', 'ر'], ['ا', 'ل', 'ج', 'م', 'ع', 'ة'], ['ا', 'ل', 'خ', 'م', 'ي', 'س'], ['ا', 'ل', 'س', 'ا', 'ع', 'ة'], ['ج', 'و', 'ي', 'ل', 'ي', 'ة'], ['د', 'ي', 'س', 'م', 'ب', 'ر'], ['س', 'ا', 'ع', 'ت', 'ي', 'ن'], ['س', 'ب', 'ت', 'م', 'ب', 'ر'], ['ف', 'ب', 'ر', 'ا', 'ي', 'ر'], ['ن', 'و', 'ف', 'م', 'ب', 'ر'], ['ا', 'ب', 'ر', 'ي', 'ل'], ['ا', 'س', 'ب', 'و', 'ع'], ['ا', 'غ', 'س', 'ط', 'س'], ['ا', 'ف', 'ر', 'ي', 'ل'], ['ا', 'ل', 'ا', 'ح', 'د'], ['ا', 'ل', 'ا', 'م', 'س'], ['ا', 'ل', 'س', 'ب', 'ت'], ['ا', 'ل', 'س', 'ن', 'ة'], ['ا', 'ل', 'ش', 'ه', 'ر'], ['ا', 'ل', 'ي', 'و', 'م'], ['ث', 'ا', 'ن', 'ي', 'ة'], ['ج', 'ا', 'ن', 'ف', 'ي'], ['د', 'ق', 'ا', 'ي', 'ق'], ['د', 'ق', 'ي', 'ق', 'ة'], ['س', 'ا', 'ع', 'ا', 'ت'], ['ص', 'ب', 'ا', 'ح', 'ا'], ['ف', 'ي', 'ف', 'ر', 'ي'], ['ي', 'ن', 'ا', 'ي', 'ر'], ['ي', 'و', 'ل', 'ي', 'و'], ['ي', 'و', 'م', 'ي', 'ن'], ['ي', 'و', 'ن', 'ي', 'و'], ['ا', 'ل', 'ا', 'ن'], ['ا', 'ي', 'ا', 'م'], ['ج', 'و', 'ا', 'ن'], ['خ', 'ل', 'ا', 'ل'], ['س', 'ا', 'ع', 'ة'], ['م', 'ا', 'ر', 'س'], ['م', 'ا', 'ي', 'و'], ['م', 'س', 'ا', 'ء'], ['g', 'm', 't'], ['u', 't', 'c'], ['ا', 'م', 'س'], ['ا', 'و', 'ت'], ['س', 'ن', 'ة'], ['ش', 'ه', 'ر'], ['ع', 'ا', 'م'], ['غ', 'د', 'ا'], ['م', 'ا', 'ي'], ['م', 'ض', 'ت'], ['م', 'ن', 'ذ'], ['ي', 'و', 'م'], ['a', 'm'], ['p', 'm'], ['ف', 'ي'], ['ه', 'ـ'], [' '], ['\''], ['+'], [','], ['-'], ['.'], ['/'], [':'], [';'], ['@'], ['['], [']'], ['z'], ['|'], ['ص'], ['م']] }

/-- internal/data/ar.go: `ar_YE_Locale`. -/
def ar_YELang : LangData := ar_YEDict

/-- internal/data/as.go: `as_Locale`. -/
def asLang : LangData := { asDict with
  knownWords :=
   [['t', 'h', 'i', 's', ' ', 'm', 'i', 'n', 'u', 't', 'e'], ['l', 'a', 's', 't', ' ', 'm', 'o', 'n', 't', 'h'], ['n', 'e', 'x', 't', ' ', 'm', 'o', 'n', 't', 'h'], ['t', 'h', 'i', 's', ' ', 'm', 'o', 'n', 't', 'h'], ['l', 'a', 's', 't', ' ', 'w', 'e', 'e', 'k'], ['l', 'a', 's', 't', ' ', 'y', 'e', 'a', 'r'], ['n', 'e', 'x', 't', ' ', 'w', 'e', 'e', 'k'], ['n', 'e', 'x', 't', ' ', 'y', 'e', 'a', 'r'], ['t', 'h', 'i', 's', ' ', 'h', 'o', 'u', 'r'], ['t', 'h', 'i', 's', ' ', 'w', 'e', 'e', 'k'], ['t', 'h', 'i', 's', ' ', 'y', 'e', 'a', 'r'], ['ব', 'হ', 'ষ', 'প', 'ত', 'ি', 'ব', 'া', 'ৰ'], ['ছ', 'ে', 'প', 'ত', 'ে', 'ম', 'ব', 'ৰ'], ['ফ', 'ে', 'ব', 'ৰ', 'ৱ', 'া', 'ৰ', 'ী'], ['জ', 'া', 'ন', 'ৱ', 'া', 'ৰ', 'ী'], ['ড', 'ি', 'চ', 'ে', 'ম', 'ব', 'ৰ'], ['ম', 'ঙ', 'গ', 'ল', 'ব', 'া', 'ৰ'], ['অ', 'ক', 'ট', 'ো', 'ব', 'ৰ'], ['অ', 'প', 'ৰ', 'া', 'হ', 'ণ'], ['ছ', 'ে', 'ক', 'ে', 'ণ', 'ড'], ['দ', 'ে', 'ও', 'ব', 'া', 'ৰ'], ['ন', 'ৱ', 'ে', 'ম', 'ব', 'ৰ'], ['প', 'ৰ', 'ব', 'া', 'হ', 'ণ'], ['ব', 'হ', 'ষ', 'প', 'ত', 'ি'], ['শ', 'ক', 'ৰ', 'ব', 'া', 'ৰ'], ['শ', 'ন', 'ি', 'ব', 'া', 'ৰ'], ['স', 'ো', 'ম', 'ব', 'া', 'ৰ'], ['এ', 'প', 'ৰ', 'ি', 'ল'], ['ক', 'া', 'ই', 'ল', 'ৈ'], ['ব', 'ধ', 'ব', 'া', 'ৰ'], ['ম', 'ি', 'ন', 'ি', 'ট'], ['স', 'প', 'ত', 'া', 'হ'], ['অ', 'ক', 'ট', 'ো'], ['আ', 'গ', 'ষ', 'ট'], ['ক', 'া', 'ল', 'ি'], ['ঘ', 'ণ', 'ট', 'া'], ['জ', 'ল', 'া', 'ই'], ['ড', 'ি', 'স', 'ে'], ['ফ', 'ে', 'ব', 'ৰ'], ['ম', 'ঙ', 'গ', 'ল'], ['ম', 'া', 'ৰ', 'চ'], ['স', 'ে', 'প', 'ট'], ['g', 'm', 't'], ['n', 'o', 'w'], ['u', 't', 'c'], ['আ', 'জ', 'ি'], ['জ', 'া', 'ন'], ['দ', 'ি', 'ন'], ['ন', 'ভ', 'ে'], ['ব', 'ছ', 'ৰ'], ['ম', 'া', 'হ'], ['শ', 'ক', 'ৰ'], ['শ', 'ন', 'ি'], ['স', 'ো', 'ম'], ['ৰ', 'ব', 'ি'], ['a', 'm'], ['p', 'm'], ['আ', 'গ'], ['জ', 'ন'], ['ব', 'ধ'], ['ম', 'ে'], [' '], ['\''], ['+'], [','], ['-'], ['.'], ['/'], [':'], [';'], ['@'], ['['], [']'], ['z'], ['|']] }

/-- internal/data/asa.go: `asa_Locale`. -/
def asaLang : LangData := { asaDict with
  knownWords :=
   [['t', 'h', 'i', 's', ' ', 'm', 'i', 'n', 'u', 't', 'e'], ['l', 'a', 's', 't', ' ', 'm', 'o', 'n', 't', 'h'], ['n', 'e', 'x', 't', ' ', 'm', 'o', 'n', 't', 'h'], ['t', 'h', 'i', 's', ' ', 'm', 'o', 'n', 't', 'h'], ['i', 'c', 'h', 'e', 'h', 'e', 'a', 'v', 'o'], ['l', 'a', 's', 't', ' ', 'w', 'e', 'e', 'k'], ['l', 'a', 's', 't', ' ', 'y', 'e', 'a', 'r'], ['n', 'e', 'x', 't', ' ', 'w', 'e', 'e', 'k'], ['n', 'e', 'x', 't', ' ', 'y', 'e', 'a', 'r'], ['t', 'h', 'i', 's', ' ', 'h', 'o', 'u', 'r'], ['t', 'h', 'i', 's', ' ', 'w', 'e', 'e', 'k'], ['t', 'h', 'i', 's', ' ', 'y', 'e', 'a', 'r'], ['a', 'l', 'h', 'a', 'm', 'i', 's', 'i'], ['f', 'e', 'b', 'r', 'u', 'a', 'r', 'i'], ['i', 'c', 'h', 'a', 'm', 't', 'h', 'i'], ['j', 'u', 'm', 'a', 'm', 'o', 's', 'i'], ['j', 'u', 'm', 'a', 'p', 'i', 'l', 'i'], ['j', 'u', 'm', 'a', 't', 'a', 'n', 'o'], ['j', 'u', 'm', 'a', 't', 'a', 't', 'u'], ['s', 'e', 'p', 't', 'e', 'm', 'b', 'a'], ['t', 'h', 'e', 'k', 'u', 'n', 'd', 'e'], ['d', 'e', 's', 'e', 'm', 'b', 'a'], ['j', 'a', 'n', 'u', 'a', 'r', 'i'], ['j', 'u', 'm', 'a', 'n', 'n', 'e'], ['n', 'o', 'v', 'e', 'm', 'b', 'a'], ['a', 'g', 'o', 's', 't', 'i'], ['a', 'p', 'r', 'i', 'l', 'i'], ['d', 'a', 'k', 'i', 'k', 'a'], ['i', 'j', 'u', 'm', 'a', 'a'], ['n', 'd', 'i', 's', 'h', 'a'], ['o', 'k', 't', 'o', 'b', 'a'], ['i', 'g', 'h', 'u', 'o'], ['j', 'u', 'l', 'a', 'i'], ['m', 'a', 'c', 'h', 'i'], ['m', 'w', 'a', 'k', 'a'], ['m', 'w', 'e', 'j', 'i'], ['t', 'h', 'i', 'k', 'u'], ['i', 'y', 'o', 'o'], ['j', 'u', 'n', 'i'], ['t', 'h', 'a', 'a'], ['y', 'a', 'v', 'o'], ['a', 'g', 'o'], ['a', 'l', 'h'], ['a', 'p', 'r'], ['d', 'e', 'c'], ['f', 'e', 'b'], ['g', 'm', 't'], ['i', 'j', 'm'], ['j', 'a', 'n'], ['j', 'm', 'o'], ['j', 'n', 'n'], ['j', 'p', 'i'], ['j', 't', 'n'], ['j', 't', 't'], ['j', 'u', 'l'], ['j', 'u', 'n'], ['m', 'a', 'c'], ['m', 'e', 'i'], ['n', 'o', 'v'], ['n', 'o', 'w'], ['o', 'k', 't'], ['s', 'e', 'p'], ['u', 't', 'c'], ['a', 'm'], ['p', 'm'], [' '], ['\''], ['+'], [','], ['-'], ['.'], ['/'], [':'], [';'], ['@'], ['['], [']'], ['z'], ['|']] }

/-- internal/data/ast.go: `ast_Locale`. -/
def astLang : LangData := { astDict with
  relativeRegexes :=
   [(.seqs [.lit ['h', 'a', 'i', ' '], .grp 1 (.number), .lit [' ', 's', 'e', 'g', 'u', 'n', 'd', 'o', 's']], [.ref 1, .lit [' ', 's', 'e', 'c', 'o', 'n', 'd', ' ', 'a', 'g', 'o']]),
    (.seqs [.lit ['h', 'a', 'i', ' '], .grp 1 (.number), .lit [' ', 's', 'e', 'l', 'm', 'a', 'n', 'e', 's']], [.ref 1, .lit [' ', 'w', 'e', 'e', 'k', ' ', 'a', 'g', 'o']]),
    (.seqs [.lit ['e', 'n', ' '], .grp 1 (.number), .lit [' ', 's', 'e', 'g', 'u', 'n', 'd', 'o', 's']], [.lit ['i', 'n', ' '], .ref 1, .lit [' ', 's', 'e', 'c', 'o', 'n', 'd']]),
    (.seqs [.lit ['e', 'n', ' '], .grp 1 (.number), .lit [' ', 's', 'e', 'l', 'm', 'a', 'n', 'e', 's']], [.lit ['i', 'n', ' '], .ref 1, .lit [' ', 'w', 'e', 'e', 'k']]),
    (.seqs [.lit ['h', 'a', 'i', ' '], .grp 1 (.number), .lit [' ', 'm', 'i', 'n', 'u', 't', 'o', 's']], [.ref 1, .lit [' ', 'm', 'i', 'n', 'u', 't', 'e', ' ', 'a', 'g', 'o']]),
    (.seqs [.lit ['h', 'a', 'i', ' '], .grp 1 (.number), .lit [' ', 's', 'e', 'g', 'u', 'n', 'd', 'u']], [.ref 1, .lit [' ', 's', 'e', 'c', 'o', 'n', 'd', ' ', 'a', 'g', 'o']]),
    (.seqs [.lit ['h', 'a', 'i', ' '], .grp 1 (.number), .lit [' ', 's', 'e', 'l', 'm', 'a', 'n', 'a']], [.ref 1, .lit [' ', 'w', 'e', 'e', 'k', ' ', 'a', 'g', 'o']]),
    (.seqs [.lit ['e', 'n', ' '], .grp 1 (.number), .lit [' ', 'm', 'i', 'n', 'u', 't', 'o', 's']], [.lit ['i', 'n', ' '], .ref 1, .lit [' ', 'm', 'i', 'n', 'u', 't', 'e']]),
    (.seqs [.lit ['e', 'n', ' '], .grp 1 (.number), .lit [' ', 's', 'e', 'g', 'u', 'n', 'd', 'u']], [.lit ['i', 'n', ' '], .ref 1, .lit [' ', 's', 'e', 'c', 'o', 'n', 'd']]),
    (.seqs [.lit ['e', 'n', ' '], .grp 1 (.number), .lit [' ', 's', 'e', 'l', 'm', 'a', 'n', 'a']], [.lit ['i', 'n', ' '], .ref 1, .lit [' ', 'w', 'e', 'e', 'k']]),
    (.seqs [.lit ['h', 'a', 'i', ' '], .grp 1 (.number), .lit [' ', 'm', 'i', 'n', 'u', 't', 'u']], [.ref 1, .lit [' ', 'm', 'i', 'n', 'u', 't', 'e', ' ', 'a', 'g', 'o']]),
    (.seqs [.lit ['e', 'n', ' '], .grp 1 (.number), .lit [' ', 'm', 'i', 'n', 'u', 't', 'u']], [.lit ['i', 'n', ' '], .ref 1, .lit [' ', 'm', 'i', 'n', 'u', 't', 'e']]),
    (.seqs [.lit ['h', 'a', 'i', ' '], .grp 1 (.number), .lit [' ', 'h', 'o', 'r', 'e', 's']], [.ref 1, .lit [' ', 'h', 'o', 'u', 'r', ' ', 'a', 'g', 'o']]),
    (.seqs [.lit ['h', 'a', 'i', ' '], .grp 1 (.number), .lit [' ', 'm', 'e', 's', 'e', 's']], [.ref 1, .lit [' ', 'm', 'o', 'n', 't', 'h', ' ', 'a', 'g', 'o']]),
    (.seqs [.lit ['e', 'n', ' '], .grp 1 (.number), .lit [' ', 'h', 'o', 'r', 'e', 's']], [.lit ['i', 'n', ' '], .ref 1, .lit [' ', 'h', 'o', 'u', 'r']]),
    (.seqs [.lit ['e', 'n', ' '], .grp 1 (.number), .lit [' ', 'm', 'e', 's', 'e', 's']], [.lit ['i', 'n', ' '], .ref 1, .lit [' ', 'm', 'o', 'n', 't', 'h']]),
    (.seqs [.lit ['h', 'a', 'i', ' '], .grp 1 (.number), .lit [' ', 'a', 'n', 'o', 's']], [.ref 1, .lit [' ', 'y', 'e', 'a', 'r', ' ', 'a', 'g', 'o']]),
    (.seqs [.lit ['h', 'a', 'i', ' '], .grp 1 (.number), .lit [' ', 'd', 'i', 'e', 's']], [.ref 1, .lit [' ', 'd', 'a', 'y', ' ', 'a', 'g', 'o']]),
    (.seqs [.lit ['h', 'a', 'i', ' '], .grp 1 (.number), .lit [' ', 'h', 'o', 'r', 'a']], [.ref 1, .lit [' ', 'h', 'o', 'u', 'r', ' ', 'a', 'g', 'o']]),
    (.seqs [.lit ['h', 'a', 'i', ' '], .grp 1 (.number), .lit [' ', 's', 'e', 'l', 'm']], [.ref 1, .lit [' ', 'w', 'e', 'e', 'k', ' ', 'a', 'g', 'o']]),
    (.seqs [.lit ['e', 'n', ' '], .grp 1 (.number), .lit [' ', 'a', 'n', 'o', 's']], [.lit ['i', 'n', ' '], .ref 1, .lit [' ', 'y', 'e', 'a', 'r']]),
    (.seqs [.lit ['e', 'n', ' '], .grp 1 (.number), .lit [' ', 'd', 'i', 'e', 's']], [.lit ['i', 'n', ' '], .ref 1, .lit [' ', 'd', 'a', 'y']]),
    (.seqs [.lit ['e', 'n', ' '], .grp 1 (.number), .lit [' ', 'h', 'o', 'r', 'a']], [.lit ['i', 'n', ' '], .ref 1, .lit [' ', 'h', 'o', 'u', 'r']]),
    (.seqs [.lit ['e', 'n', ' '], .grp 1 (.number), .lit [' ', 's', 'e', 'l', 'm']], [.lit ['i', 'n', ' '], .ref 1, .lit [' ', 'w', 'e', 'e', 'k']]),
    (.seqs [.lit ['h', 'a', 'i', ' '], .grp 1 (.number), .lit [' ', 'a', 'n', 'u']], [.ref 1, .lit [' ', 'y', 'e', 'a', 'r', ' ', 'a', 'g', 'o']]),
    (.seqs [.lit ['h', 'a', 'i', ' '], .grp 1 (.number), .lit [' ', 'd', 'i', 'a']], [.ref 1, .lit [' ', 'd', 'a', 'y', ' ', 'a', 'g', 'o']]),
    (.seqs [.lit ['h', 'a', 'i', ' '], .grp 1 (.number), .lit [' ', 'm', 'e', 's']], [.ref 1, .lit [' ', 'm', 'o', 'n', 't', 'h', ' ', 'a', 'g', 'o']]),
    (.seqs [.lit ['h', 'a', 'i', ' '], .grp 1 (.number), .lit [' ', 'm', 'i', 'n']], [.ref 1, .lit [' ', 'm', 'i', 'n', 'u', 't', 'e', ' ', 'a', 'g', 'o']]),
    (.seqs [.lit ['h', 'a', 'i', ' '], .grp 1 (.number), .lit [' ', 's', 'e', 'g']], [.ref 1, .lit [' ', 's', 'e', 'c', 'o', 'n', 'd', ' ', 'a', 'g', 'o']]),
    (.seqs [.lit ['e', 'n', ' '], .grp 1 (.number), .lit [' ', 'a', 'n', 'u']], [.lit ['i', 'n', ' '], .ref 1, .lit [' ', 'y', 'e', 'a', 'r']]),
    (.seqs [.lit ['e', 'n', ' '], .grp 1 (.number), .lit [' ', 'd', 'i', 'a']], [.lit ['i', 'n', ' '], .ref 1, .lit [' ', 'd', 'a', 'y']]),
    (.seqs [.lit ['e', 'n', ' '], .grp 1 (.number), .lit [' ', 'm', 'e', 's']], [.lit ['i', 'n', ' '], .ref 1, .lit [' ', 'm', 'o', 'n', 't', 'h']]),
    (.seqs [.lit ['e', 'n', ' '], .grp 1 (.number), .lit [' ', 'm', 'i', 'n']], [.lit ['i', 'n', ' '], .ref 1, .lit [' ', 'm', 'i', 'n', 'u', 't', 'e']]),
    (.seqs [.lit ['e', 'n', ' '], .grp 1 (.number), .lit [' ', 's', 'e', 'g']], [.lit ['i', 'n', ' '], .ref 1, .lit [' ', 's', 'e', 'c', 'o', 'n', 'd']]),
    (.seqs [.lit ['h', 'a', 'i', ' '], .grp 1 (.number), .lit [' ', 's', 'e']], [.ref 1, .lit [' ', 'w', 'e', 'e', 'k', ' ', 'a', 'g', 'o']]),
    (.seqs [.lit ['e', 'n', ' '], .grp 1 (.number), .lit [' ', 's', 'e']], [.lit ['i', 'n', ' '], .ref 1, .lit [' ', 'w', 'e', 'e', 'k']]),
    (.seqs [.lit ['h', 'a', 'i', ' '], .grp 1 (.number), .lit [' ', 'a']], [.ref 1, .lit [' ', 'y', 'e', 'a', 'r', ' ', 'a', 'g', 'o']]),
    (.seqs [.lit ['h', 'a', 'i', ' '], .grp 1 (.number), .lit [' ', 'd']], [.ref 1, .lit [' ', 'd', 'a', 'y', ' ', 'a', 'g', 'o']]),
    (.seqs [.lit ['h', 'a', 'i', ' '], .grp 1 (.number), .lit [' ', 'h']], [.ref 1, .lit [' ', 'h', 'o', 'u', 'r', ' ', 'a', 'g', 'o']]),
    (.seqs [.lit ['h', 'a', 'i', ' '], .grp 1 (.number), .lit [' ', 'm']], [.ref 1, .lit [' ', 'm', 'o', 'n', 't', 'h', ' ', 'a', 'g', 'o']]),
    (.seqs [.lit ['h', 'a', 'i', ' '], .grp 1 (.number), .lit [' ', 's']], [.ref 1, .lit [' ', 's', 'e', 'c', 'o', 'n', 'd', ' ', 'a', 'g', 'o']]),
    (.seqs [.lit ['e', 'n', ' '], .grp 1 (.number), .lit [' ', 'a']], [.lit ['i', 'n', ' '], .ref 1, .lit [' ', 'y', 'e', 'a', 'r']]),
    (.seqs [.lit ['e', 'n', ' '], .grp 1 (.number), .lit [' ', 'd']], [.lit ['i', 'n', ' '], .ref 1, .lit [' ', 'd', 'a', 'y']]),
    (.seqs [.lit ['e', 'n', ' '], .grp 1 (.number), .lit [' ', 'h']], [.lit ['i', 'n', ' '], .ref 1, .lit [' ', 'h', 'o', 'u', 'r']]),
    (.seqs [.lit ['e', 'n', ' '], .grp 1 (.number), .lit [' ', 'm']], [.lit ['i', 'n', ' '], .ref 1, .lit [' ', 'm', 'o', 'n', 't', 'h']]),
    (.seqs [.lit ['e', 'n', ' '], .grp 1 (.number), .lit [' ', 's']], [.lit ['i', 'n', ' '], .ref 1, .lit [' ', 's', 'e', 'c', 'o', 'n', 'd']])],
  rxCombined := some (.seqs [.grp 1 (.alts [.bos, .cls true [.letter, .mark, .digit], .lit ['_']]), .grp 2 (.alts [.seqs [.lit ['h', 'a', 'i', ' '], .number, .lit [' ', 's', 'e', 'g', 'u', 'n', 'd', 'o', 's']], .seqs [.lit ['h', 'a', 'i', ' '], .number, .lit [' ', 's', 'e', 'l', 'm', 'a', 'n', 'e', 's']], .seqs [.lit ['e', 'n', ' '], .number, .lit [' ', 's', 'e', 'g', 'u', 'n', 'd', 'o', 's']], .seqs [.lit ['e', 'n', ' '], .number, .lit [' ', 's', 'e', 'l', 'm', 'a', 'n', 'e', 's']], .seqs [.lit ['h', 'a', 'i', ' '], .number, .lit [' ', 'm', 'i', 'n', 'u', 't', 'o', 's']], .seqs [.lit ['h', 'a', 'i', ' '], .number, .lit [' ', 's', 'e', 'g', 'u', 'n', 'd', 'u']], .seqs [.lit ['h', 'a', 'i', ' '], .number, .lit [' ', 's', 'e', 'l', 'm', 'a', 'n', 'a']], .seqs [.lit ['e', 'n', ' '], .number, .lit [' ', 'm', 'i', 'n', 'u', 't', 'o', 's']], .seqs [.lit ['e', 'n', ' '], .number, .lit [' ', 's', 'e', 'g', 'u', 'n', 'd', 'u']], .seqs [.lit ['e', 'n', ' '], .number, .lit [' ', 's', 'e', 'l', 'm', 'a', 'n', 'a']], .seqs [.lit ['h', 'a', 'i', ' '], .number, .lit [' ', 'm', 'i', 'n', 'u', 't', 'u']], .seqs [.lit ['e', 'n', ' '], .number, .lit [' ', 'm', 'i', 'n', 'u', 't', 'u']], .seqs [.lit ['h', 'a', 'i', ' '], .number, .lit [' ', 'h', 'o', 'r', 'e', 's']], .seqs [.lit ['h', 'a', 'i', ' '], .number, .lit [' ', 'm', 'e', 's', 'e', 's']], .seqs [.lit ['e', 'n', ' '], .number, .lit [' ', 'h', 'o', 'r', 'e', 's']], .seqs [.lit ['e', 'n', ' '], .number, .lit [' ', 'm', 'e', 's', 'e', 's']], .seqs [.lit ['h', 'a', 'i', ' '], .number, .lit [' ', 'a', 'n', 'o', 's']], .seqs [.lit ['h', 'a', 'i', ' '], .number, .lit [' ', 'd', 'i', 'e', 's']], .seqs [.lit ['h', 'a', 'i', ' '], .number, .lit [' ', 'h', 'o', 'r', 'a']], .seqs [.lit ['h', 'a', 'i', ' '], .number, .lit [' ', 's', 'e', 'l', 'm']], .seqs [.lit ['e', 'n', ' '], .number, .lit [' ', 'a', 'n', 'o', 's']], .seqs [.lit ['e', 'n', ' '], .number, .lit [' ', 'd', 'i', 'e', 's']], .seqs [.lit ['e', 'n', ' '], .number, .lit [' ', 'h', 'o', 'r', 'a']], .seqs [.lit ['e', 'n', ' '], .number, .lit [' ', 's', 'e', 'l', 'm']], .seqs [.lit ['h', 'a', 'i', ' '], .number, .lit [' ', 'a', 'n', 'u']], .seqs [.lit ['h', 'a', 'i', ' '], .number, .lit [' ', 'd', 'i', 'a']], .seqs [.lit ['h', 'a', 'i', ' '], .number, .lit [' ', 'm', 'e', 's']], .seqs [.lit ['h', 'a', 'i', ' '], .number, .lit [' ', 'm', 'i', 'n']], .seqs [.lit ['h', 'a', 'i', ' '], .number, .lit [' ', 's', 'e', 'g']], .seqs [.lit ['e', 'n', ' '], .number, .lit [' ', 'a', 'n', 'u']], .seqs [.lit ['e', 'n', ' '], .number, .lit [' ', 'd', 'i', 'a']], .seqs [.lit ['e', 'n', ' '], .number, .lit [' ', 'm', 'e', 's']], .seqs [.lit ['e', 'n', ' '], .number, .lit [' ', 'm', 'i', 'n']], .seqs [.lit ['e', 'n', ' '], .number, .lit [' ', 's', 'e', 'g']], .seqs [.lit ['h', 'a', 'i', ' '], .number, .lit [' ', 's', 'e']], .seqs [.lit ['e', 'n', ' '], .number, .lit [' ', 's', 'e']], .seqs [.lit ['h', 'a', 'i', ' '], .number, .lit [' ', 'a']], .seqs [.lit ['h', 'a', 'i', ' '], .number, .lit [' ', 'd']], .seqs [.lit ['h', 'a', 'i', ' '], .number, .lit [' ', 'h']], .seqs [.lit ['h', 'a', 'i', ' '], .number, .lit [' ', 'm']], .seqs [.lit ['h', 'a', 'i', ' '], .number, .lit [' ', 's']], .seqs [.lit ['e', 'n', ' '], .number, .lit [' ', 'a']], .seqs [.lit ['e', 'n', ' '], .number, .lit [' ', 'd']], .seqs [.lit ['e', 'n', ' '], .number, .lit [' ', 'h']], .seqs [.lit ['e', 'n', ' '], .number, .lit [' ', 'm']], .seqs [.lit ['e', 'n', ' '], .number, .lit [' ', 's']]]), .grp 3 (.alts [.eos, .cls true [.letter, .mark, .digit], .lit ['_']])], 3),
  rxExact := some (.seqs [.bos, .grp 1 (.alts [.seqs [.lit ['h', 'a', 'i', ' '], .number, .lit [' ', 's', 'e', 'g', 'u', 'n', 'd', 'o', 's']], .seqs [.lit ['h', 'a', 'i', ' '], .number, .lit [' ', 's', 'e', 'l', 'm', 'a', 'n', 'e', 's']], .seqs [.lit ['e', 'n', ' '], .number, .lit [' ', 's', 'e', 'g', 'u', 'n', 'd', 'o', 's']], .seqs [.lit ['e', 'n', ' '], .number, .lit [' ', 's', 'e', 'l', 'm', 'a', 'n', 'e', 's']], .seqs [.lit ['h', 'a', 'i', ' '], .number, .lit [' ', 'm', 'i', 'n', 'u', 't', 'o', 's']], .seqs [.lit ['h', 'a', 'i', ' '], .number, .lit [' ', 's', 'e', 'g', 'u', 'n', 'd', 'u']], .seqs [.lit ['h', 'a', 'i', ' '], .number, .lit [' ', 's', 'e', 'l', 'm', 'a', 'n', 'a']], .seqs [.lit ['e', 'n', ' '], .number, .lit [' ', 'm', 'i', 'n', 'u', 't', 'o', 's']], .seqs [.lit ['e', 'n', ' '], .number, .lit [' ', 's', 'e', 'g', 'u', 'n', 'd', 'u']], .seqs [.lit ['e', 'n', ' '], .number, .lit [' ', 's', 'e', 'l', 'm', 'a', 'n', 'a']], .seqs [.lit ['h', 'a', 'i', ' '], .number, .lit [' ', 'm', 'i', 'n', 'u', 't', 'u']], .seqs [.lit ['e', 'n', ' '], .number, .lit [' ', 'm', 'i', 'n', 'u', 't', 'u']], .seqs [.lit ['h', 'a', 'i', ' '], .number, .lit [' ', 'h', 'o', 'r', 'e', 's']], .seqs [.lit ['h', 'a', 'i', ' '], .number, .lit [' ', 'm', 'e', 's', 'e', 's']], .seqs [.lit ['e', 'n', ' '], .number, .lit [' ', 'h', 'o', 'r', 'e', 's']], .seqs [.lit ['e', 'n', ' '], .number, .lit [' ', 'm', 'e', 's', 'e', 's']], .seqs [.lit ['h', 'a', 'i', ' '], .number, .lit [' ', 'a', 'n', 'o', 's']], .seqs [.lit ['h', 'a', 'i', ' '], .number, .lit [' ', 'd', 'i', 'e', 's']], .seqs [.lit ['h', 'a', 'i', ' '], .number, .lit [' ', 'h', 'o', 'r', 'a']], .seqs [.lit ['h', 'a', 'i', ' '], .number, .lit [' ', 's', 'e', 'l', 'm']], .seqs [.lit ['e', 'n', ' '], .number, .lit [' ', 'a', 'n', 'o', 's']], .seqs [.lit ['e', 'n', ' '], .number, .lit [' ', 'd', 'i', 'e', 's']], .seqs [.lit ['e', 'n', ' '], .number, .lit [' ', 'h', 'o', 'r', 'a']], .seqs [.lit ['e', 'n', ' '], .number, .lit [' ', 's', 'e', 'l', 'm']], .seqs [.lit ['h', 'a', 'i', ' '], .number, .lit [' ', 'a', 'n', 'u']], .seqs [.lit ['h', 'a', 'i', ' '], .number, .lit [' ', 'd', 'i', 'a']], .seqs [.lit ['h', 'a', 'i', ' '], .number, .lit [' ', 'm', 'e', 's']], .seqs [.lit ['h', 'a', 'i', ' '], .number, .lit [' ', 'm', 'i', 'n']], .seqs [.lit ['h', 'a', 'i', ' '], .number, .lit [' ', 's', 'e', 'g']], .seqs [.lit ['e', 'n', ' '], .number, .lit [' ', 'a', 'n', 'u']], .seqs [.lit ['e', 'n', ' '], .number, .lit [' ', 'd', 'i', 'a']], .seqs [.lit ['e', 'n', ' '], .number, .lit [' ', 'm', 'e', 's']], .seqs [.lit ['e', 'n', ' '], .number, .lit [' ', 'm', 'i', 'n']], .seqs [.lit ['e', 'n', ' '], .number, .lit [' ', 's', 'e', 'g']], .seqs [.lit ['h', 'a', 'i', ' '], .number, .lit [' ', 's', 'e']], .seqs [.lit ['e', 'n', ' '], .number, .lit [' ', 's', 'e']], .seqs [.lit ['h', 'a', 'i', ' '], .number, .lit [' ', 'a']], .seqs [.lit ['h', 'a', 'i', ' '], .number, .lit [' ', 'd']], .seqs [.lit ['h', 'a', 'i', ' '], .number, .lit [' ', 'h']], .seqs [.lit ['h', 'a', 'i', ' '], .number, .lit [' ', 'm']], .seqs [.lit ['h', 'a', 'i', ' '], .number, .lit [' ', 's']], .seqs [.lit ['e', 'n', ' '], .number, .lit [' ', 'a']], .seqs [.lit ['e', 'n', ' '], .number, .lit [' ', 'd']], .seqs [.lit ['e', 'n', ' '], .number, .lit [' ', 'h']], .seqs [.lit ['e', 'n', ' '], .number, .lit [' ', 'm']], .seqs [.lit ['e', 'n', ' '], .number, .lit [' ', 's']]]), .eos]),
  knownWords :=
   [['l', 'a', ' ', 's', 'e', 'l', 'm', 'a', 'n', 'a', ' ', 'v', 'i', 'n', 'i', 'e', 'n', 't', 'e'], ['l', 'a', ' ', 's', 'e', 'l', 'm', 'a', 'n', 'a', ' ', 'p', 'a', 's', 'a', 'd', 'a'], ['e', 'l', ' ', 'm', 'e', 's', ' ', 'v', 'i', 'n', 'i', 'e', 'n', 't', 'e'], ['l', '\'', 'a', 'n', 'u', ' ', 'v', 'i', 'n', 'i', 'e', 'n', 't', 'e'], ['s', 'e', 'l', 'm', ' ', 'v', 'i', 'n', 'i', 'e', 'n', 't', 'e'], ['d', 'e', ' ', 'l', 'a', ' ', 'm', 'a', 'n', 'a', 'n', 'a'], ['d', 'e', ' ', 's', 'e', 't', 'i', 'e', 'm', 'b', 'r', 'e'], ['e', 'l', ' ', 'm', 'e', 's', ' ', 'p', 'a', 's', 'a', 'u'], ['e', 's', 't', 'a', ' ', 's', 'e', 'l', 'm', 'a', 'n', 'a'], ['d', 'e', ' ', 'l', 'a', ' ', 't', 'a', 'r', 'd', 'e'], ['e', 's', 't', 'i', ' ', 'm', 'i', 'n', 'u', 't', 'u'], ['l', '\'', 'a', 'n', 'u', ' ', 'p', 'a', 's', 'a', 'u'], ['s', 'e', 'l', 'm', ' ', 'p', 'a', 's', 'a', 'd', 'a'], ['d', 'e', ' ', 'f', 'e', 'b', 'r', 'e', 'r', 'u'], ['d', 'e', ' ', 'p', 'a', 'y', 'a', 'r', 'e', 's'], ['d', '\'', 'a', 'v', 'i', 'e', 'n', 't', 'u'], ['d', '\'', 'o', 'c', 'h', 'o', 'b', 'r', 'e'], ['d', 'e', ' ', 'x', 'i', 'n', 'e', 'r', 'u'], ['d', 'e', ' ', 'x', 'u', 'n', 'e', 't', 'u'], ['e', 's', 't', 'a', ' ', 'h', 'o', 'r', 'a'], ['e', 's', 't', 'a', ' ', 's', 'e', 'l', 'm'], ['l', '\'', 'a', 'n', 'u', ' ', 'p', 'a', 's'], ['l', '\'', 'a', 'n', 'u', ' ', 'v', 'i', 'n'], ['m', 'i', 'e', 'r', 'c', 'o', 'l', 'e', 's'], ['s', 'e', 't', 'i', 'e', 'm', 'b', 'r', 'e'], ['d', '\'', 'a', 'g', 'o', 's', 't', 'u'], ['d', 'e', ' ', 'm', 'a', 'r', 'z', 'u'], ['e', 's', 't', 'i', ' ', 'a', 'n', 'u'], ['e', 's', 't', 'i', ' ', 'm', 'e', 's'], ['e', 's', 't', 'i', ' ', 'm', 'i', 'n'], ['s', 'e', 'l', 'm', ' ', 'p', 'a', 's'], ['s', 'e', 'l', 'm', ' ', 'v', 'i', 'n'], ['a', 'n', 'u', ' ', 'p', 'a', 's'], ['a', 'n', 'u', ' ', 'v', 'i', 'n'], ['a', 'v', 'i', 'e', 'n', 't', 'u'], ['d', '\'', 'a', 'b', 'r', 'i', 'l'], ['d', 'e', ' ', 'm', 'a', 'y', 'u'], ['d', 'e', ' ', 'x', 'u', 'n', 'u'], ['d', 'o', 'm', 'i', 'n', 'g', 'u'], ['f', 'e', 'b', 'r', 'e', 'r', 'u'], ['m', 'e', 's', ' ', 'p', 'a', 's'], ['m', 'e', 's', ' ', 'v', 'i', 'n'], ['o', 'c', 'h', 'o', 'b', 'r', 'e'], ['p', 'a', 'y', 'a', 'r', 'e', 's'], ['s', 'e', 'g', 'u', 'n', 'd', 'u'], ['s', 'e', 'l', 'm', 'a', 'n', 'a'], ['v', 'i', 'e', 'n', 'r', 'e', 's'], ['a', 'g', 'o', 's', 't', 'u'], ['e', 's', 't', 'a', ' ', 'h'], ['l', 'l', 'u', 'n', 'e', 's'], ['m', 'a', 'n', 'a', 'n', 'a'], ['m', 'a', 'r', 't', 'e', 's'], ['m', 'i', 'n', 'u', 't', 'u'], ['s', 'a', 'b', 'a', 'd', 'u'], ['x', 'i', 'n', 'e', 'r', 'u'], ['x', 'u', 'e', 'v', 'e', 's'], ['x', 'u', 'n', 'e', 't', 'u'], ['a', 'b', 'r', 'i', 'l'], ['a', 'g', 'o', 'r', 'a'], ['a', 'y', 'e', 'r', 'i'], ['m', 'a', 'r', 'z', 'u'], ['t', 'a', 'r', 'd', 'e'], ['g', 'u', 'e', 'i'], ['h', 'o', 'r', 'a'], ['m', 'a', 'y', 'u'], ['x', 'u', 'n', 'u'], ['a', 'b', 'r'], ['a', 'g', 'o'], ['a', 'n', 'u'], ['a', 'v', 'i'], ['d', 'i', 'a'], ['d', 'o', 'm'], ['f', 'e', 'b'], ['g', 'm', 't'], ['l', 'l', 'u'], ['m', 'a', 'n'], ['m', 'a', 'r'], ['m', 'a', 'y'], ['m', 'e', 's'], ['m', 'i', 'e'], ['m', 'i', 'n'], ['o', 'c', 'h'], ['p', 'a', 'y'], ['s', 'a', 'b'], ['s', 'e', 'l'], ['s', 'e', 't'], ['u', 't', 'c'], ['v', 'i', 'e'], ['x', 'i', 'n'], ['x', 'n', 't'], ['x', 'u', 'e'], ['x', 'u', 'n'], ['a', 'm'], ['p', 'm'], [' '], ['\''], ['+'], [','], ['-'], ['.'], ['/'], [':'], [';'], ['@'], ['['], [']'], ['h'], ['m'], ['s'], ['z'], ['|']] }

/-- internal/data/az-cyrl.go: `az_Cyrl_Locale`. -/
def az_CyrlLang : LangData := { az_CyrlDict with
  knownWords :=
   [['ч', 'ә', 'р', 'ш', 'ә', 'н', 'б', 'ә', ' ', 'а', 'х', 'ш', 'а', 'м', 'ы'], ['б', 'а', 'з', 'а', 'р', ' ', 'е', 'р', 'т', 'ә', 'с', 'и'], ['t', 'h', 'i', 's', ' ', 'm', 'i', 'n', 'u', 't', 'e'], ['ҹ', 'ү', 'м', 'ә', ' ', 'а', 'х', 'ш', 'а', 'м', 'ы'], ['l', 'a', 's', 't', ' ', 'm', 'o', 'n', 't', 'h'], ['n', 'e', 'x', 't', ' ', 'm', 'o', 'n', 't', 'h'], ['t', 'h', 'i', 's', ' ', 'm', 'o', 'n', 't', 'h'], ['l', 'a', 's', 't', ' ', 'w', 'e', 'e', 'k'], ['l', 'a', 's', 't', ' ', 'y', 'e', 'a', 'r'], ['n', 'e', 'x', 't', ' ', 'w', 'e', 'e', 'k'], ['n', 'e', 'x', 't', ' ', 'y', 'e', 'a', 'r'], ['t', 'h', 'i', 's', ' ', 'h', 'o', 'u', 'r'], ['t', 'h', 'i', 's', ' ', 'w', 'e', 'e', 'k'], ['t', 'h', 'i', 's', ' ', 'y', 'e', 'a', 'r'], ['y', 'e', 's', 't', 'e', 'r', 'd', 'a', 'y'], ['t', 'o', 'm', 'o', 'r', 'r', 'o', 'w'], ['с', 'е', 'н', 'т', 'ј', 'а', 'б', 'р'], ['ч', 'ә', 'р', 'ш', 'ә', 'н', 'б', 'ә'], ['о', 'к', 'т', 'ј', 'а', 'б', 'р'], ['m', 'i', 'n', 'u', 't', 'e'], ['s', 'e', 'c', 'o', 'n', 'd'], ['а', 'в', 'г', 'у', 'с', 'т'], ['д', 'е', 'к', 'а', 'б', 'р'], ['н', 'о', 'ј', 'а', 'б', 'р'], ['ф', 'е', 'в', 'р', 'а', 'л'], ['ј', 'а', 'н', 'в', 'а', 'р'], ['m', 'o', 'n', 't', 'h'], ['t', 'o', 'd', 'a', 'y'], ['а', 'п', 'р', 'е', 'л'], ['б', 'а', 'з', 'а', 'р'], ['ш', 'ә', 'н', 'б', 'ә'], ['h', 'o', 'u', 'r'], ['w', 'e', 'e', 'k'], ['y', 'e', 'a', 'r'], ['и', 'ј', 'у', 'л'], ['и', 'ј', 'у', 'н'], ['м', 'а', 'р', 'т'], ['ҹ', 'ү', 'м', 'ә'], ['d', 'a', 'y'], ['g', 'm', 't'], ['n', 'o', 'w'], ['u', 't', 'c'], ['а', 'в', 'г'], ['а', 'п', 'р'], ['д', 'е', 'к'], ['и', 'ј', 'л'], ['и', 'ј', 'н'], ['м', 'а', 'и'], ['м', 'а', 'р'], ['н', 'о', 'ј'], ['о', 'к', 'т'], ['с', 'е', 'н'], ['ф', 'е', 'в'], ['ј', 'а', 'н'], ['a', 'm'], ['p', 'm'], ['а', 'м'], ['б', 'е'], ['п', 'м'], ['ч', 'а'], ['ҹ', 'а'], [' '], ['\''], ['+'], [','], ['-'], ['.'], ['/'], [':'], [';'], ['@'], ['['], [']'], ['z'], ['|'], ['б'], ['ч'], ['ш'], ['ҹ']] }

/-- internal/data/az-latn.go: `az_Latn_Locale`. -/
def az_LatnLang : LangData := { az_LatnDict with
  relativeRegexes :=
   [(.seqs [.grp 1 (.number), .lit [' ', 'd'], .cls false [.rng 'Ə' 'Ə', .rng 'ə' 'ə'], .lit ['q', 'i', 'q'], .cls false [.rng 'Ə' 'Ə', .rng 'ə' 'ə'], .lit [' '], .cls false [.rng 'Ə' 'Ə', .rng 'ə' 'ə'], .lit ['r', 'z', 'i', 'n', 'd'], .cls false [.rng 'Ə' 'Ə', .rng 'ə' 'ə']], [.lit ['i', 'n', ' '], .ref 1, .lit [' ', 'm', 'i', 'n', 'u', 't', 'e']]),
    (.seqs [.grp 1 (.number), .lit [' ', 's', 'a', 'n', 'i', 'y'], .cls false [.rng 'Ə' 'Ə', .rng 'ə' 'ə'], .lit [' '], .cls false [.rng 'Ə' 'Ə', .rng 'ə' 'ə'], .lit ['r', 'z', 'i', 'n', 'd'], .cls false [.rng 'Ə' 'Ə', .rng 'ə' 'ə']], [.lit ['i', 'n', ' '], .ref 1, .lit [' ', 's', 'e', 'c', 'o', 'n', 'd']]),
    (.seqs [.grp 1 (.number), .lit [' ', 'h'], .cls false [.rng 'Ə' 'Ə', .rng 'ə' 'ə'], .lit ['f', 't'], .cls false [.rng 'Ə' 'Ə', .rng 'ə' 'ə'], .lit [' '], .cls false [.rng 'Ə' 'Ə', .rng 'ə' 'ə'], .lit ['r', 'z', 'i', 'n', 'd'], .cls false [.rng 'Ə' 'Ə', .rng 'ə' 'ə']], [.lit ['i', 'n', ' '], .ref 1, .lit [' ', 'w', 'e', 'e', 'k']]),
    (.seqs [.grp 1 (.number), .lit [' ', 's', 'a', 'a', 't', ' '], .cls false [.rng 'Ə' 'Ə', .rng 'ə' 'ə'], .lit ['r', 'z', 'i', 'n', 'd'], .cls false [.rng 'Ə' 'Ə', .rng 'ə' 'ə']], [.lit ['i', 'n', ' '], .ref 1, .lit [' ', 'h', 'o', 'u', 'r']]),
    (.seqs [.grp 1 (.number), .lit [' ', 'd'], .cls false [.rng 'Ə' 'Ə', .rng 'ə' 'ə'], .lit ['q', 'i', 'q'], .cls false [.rng 'Ə' 'Ə', .rng 'ə' 'ə'], .lit [' ', 'o', 'n', 'c'], .cls false [.rng 'Ə' 'Ə', .rng 'ə' 'ə']], [.ref 1, .lit [' ', 'm', 'i', 'n', 'u', 't', 'e', ' ', 'a', 'g', 'o']]),
    (.seqs [.grp 1 (.number), .lit [' ', 'g', 'u', 'n', ' '], .cls false [.rng 'Ə' 'Ə', .rng 'ə' 'ə'], .lit ['r', 'z', 'i', 'n', 'd'], .cls false [.rng 'Ə' 'Ə', .rng 'ə' 'ə']], [.lit ['i', 'n', ' '], .ref 1, .lit [' ', 'd', 'a', 'y']]),
    (.seqs [.grp 1 (.number), .lit [' ', 's', 'a', 'n', 'i', 'y'], .cls false [.rng 'Ə' 'Ə', .rng 'ə' 'ə'], .lit [' ', 'o', 'n', 'c'], .cls false [.rng 'Ə' 'Ə', .rng 'ə' 'ə']], [.ref 1, .lit [' ', 's', 'e', 'c', 'o', 'n', 'd', ' ', 'a', 'g', 'o']]),
    (.seqs [.grp 1 (.number), .lit [' ', 'a', 'y', ' '], .cls false [.rng 'Ə' 'Ə', .rng 'ə' 'ə'], .lit ['r', 'z', 'i', 'n', 'd'], .cls false [.rng 'Ə' 'Ə', .rng 'ə' 'ə']], [.lit ['i', 'n', ' '], .ref 1, .lit [' ', 'm', 'o', 'n', 't', 'h']]),
    (.seqs [.grp 1 (.number), .lit [' ', 'h'], .cls false [.rng 'Ə' 'Ə', .rng 'ə' 'ə'], .lit ['f', 't'], .cls false [.rng 'Ə' 'Ə', .rng 'ə' 'ə'], .lit [' ', 'o', 'n', 'c'], .cls false [.rng 'Ə' 'Ə', .rng 'ə' 'ə']], [.ref 1, .lit [' ', 'w', 'e', 'e', 'k', ' ', 'a', 'g', 'o']]),
    (.seqs [.grp 1 (.number), .lit [' ', 'i', 'l', ' '], .cls false [.rng 'Ə' 'Ə', .rng 'ə' 'ə'], .lit ['r', 'z', 'i', 'n', 'd'], .cls false [.rng 'Ə' 'Ə', .rng 'ə' 'ə']], [.lit ['i', 'n', ' '], .ref 1, .lit [' ', 'y', 'e', 'a', 'r']]),
    (.seqs [.grp 1 (.number), .lit [' ', 's', 'a', 'a', 't', ' ', 'o', 'n', 'c'], .cls false [.rng 'Ə' 'Ə', .rng 'ə' 'ə']], [.ref 1, .lit [' ', 'h', 'o', 'u', 'r', ' ', 'a', 'g', 'o']]),
    (.seqs [.grp 1 (.number), .lit [' ', 'g', 'u', 'n', ' ', 'o', 'n', 'c'], .cls false [.rng 'Ə' 'Ə', .rng 'ə' 'ə']], [.ref 1, .lit [' ', 'd', 'a', 'y', ' ', 'a', 'g', 'o']]),
    (.seqs [.grp 1 (.number), .lit [' ', 'a', 'y', ' ', 'o', 'n', 'c'], .cls false [.rng 'Ə' 'Ə', .rng 'ə' 'ə']], [.ref 1, .lit [' ', 'm', 'o', 'n', 't', 'h', ' ', 'a', 'g', 'o']]),
    (.seqs [.grp 1 (.number), .lit [' ', 'i', 'l', ' ', 'o', 'n', 'c'], .cls false [.rng 'Ə' 'Ə', .rng 'ə' 'ə']], [.ref 1, .lit [' ', 'y', 'e', 'a', 'r', ' ', 'a', 'g', 'o']])],
  rxCombined := some (.seqs [.grp 1 (.alts [.bos, .cls true [.letter, .mark, .digit], .lit ['_']]), .grp 2 (.alts [.seqs [.number, .lit [' ', 'd'], .cls false [.rng 'Ə' 'Ə', .rng 'ə' 'ə'], .lit ['q', 'i', 'q'], .cls false [.rng 'Ə' 'Ə', .rng 'ə' 'ə'], .lit [' '], .cls false [.rng 'Ə' 'Ə', .rng 'ə' 'ə'], .lit ['r', 'z', 'i', 'n', 'd'], .cls false [.rng 'Ə' 'Ə', .rng 'ə' 'ə']], .seqs [.number, .lit [' ', 's', 'a', 'n', 'i', 'y'], .cls false [.rng 'Ə' 'Ə', .rng 'ə' 'ə'], .lit [' '], .cls false [.rng 'Ə' 'Ə', .rng 'ə' 'ə'], .lit ['r', 'z', 'i', 'n', 'd'], .cls false [.rng 'Ə' 'Ə', .rng 'ə' 'ə']], .seqs [.number, .lit [' ', 'h'], .cls false [.rng 'Ə' 'Ə', .rng 'ə' 'ə'], .lit ['f', 't'], .cls false [.rng 'Ə' 'Ə', .rng 'ə' 'ə'], .lit [' '], .cls false [.rng 'Ə' 'Ə', .rng 'ə' 'ə'], .lit ['r', 'z', 'i', 'n', 'd'], .cls false [.rng 'Ə' 'Ə', .rng 'ə' 'ə']], .seqs [.number, .lit [' ', 's', 'a', 'a', 't', ' '], .cls false [.rng 'Ə' 'Ə', .rng 'ə' 'ə'], .lit ['r', 'z', 'i', 'n', 'd'], .cls false [.rng 'Ə' 'Ə', .rng 'ə' 'ə']], .seqs [.number, .lit [' ', 'd'], .cls false [.rng 'Ə' 'Ə', .rng 'ə' 'ə'], .lit ['q', 'i', 'q'], .cls false [.rng 'Ə' 'Ə', .rng 'ə' 'ə'], .lit [' ', 'o', 'n', 'c'], .cls false [.rng 'Ə' 'Ə', .rng 'ə' 'ə']], .seqs [.number, .lit [' ', 'g', 'u', 'n', ' '], .cls false [.rng 'Ə' 'Ə', .rng 'ə' 'ə'], .lit ['r', 'z', 'i', 'n', 'd'], .cls false [.rng 'Ə' 'Ə', .rng 'ə' 'ə']], .seqs [.number, .lit [' ', 's', 'a', 'n', 'i', 'y'], .cls false [.rng 'Ə' 'Ə', .rng 'ə' 'ə'], .lit [' ', 'o', 'n', 'c'], .cls false [.rng 'Ə' 'Ə', .rng 'ə' 'ə']], .seqs [.number, .lit [' ', 'a', 'y', ' '], .cls false [.rng 'Ə' 'Ə', .rng 'ə' 'ə'], .lit ['r', 'z', 'i', 'n', 'd'], .cls false [.rng 'Ə' 'Ə', .rng 'ə' 'ə']], .seqs [.number, .lit [' ', 'h'], .cls false [.rng 'Ə' 'Ə', .rng 'ə' 'ə'], .lit ['f', 't'], .cls false [.rng 'Ə' 'Ə', .rng 'ə' 'ə'], .lit [' ', 'o', 'n', 'c'], .cls false [.rng 'Ə' 'Ə', .rng 'ə' 'ə']], .seqs [.number, .lit [' ', 'i', 'l', ' '], .cls false [.rng 'Ə' 'Ə', .rng 'ə' 'ə'], .lit ['r', 'z', 'i', 'n', 'd'], .cls false [.rng 'Ə' 'Ə', .rng 'ə' 'ə']], .seqs [.number, .lit [' ', 's', 'a', 'a', 't', ' ', 'o', 'n', 'c'], .cls false [.rng 'Ə' 'Ə', .rng 'ə' 'ə']], .seqs [.number, .lit [' ', 'g', 'u', 'n', ' ', 'o', 'n', 'c'], .cls false [.rng 'Ə' 'Ə', .rng 'ə' 'ə']], .seqs [.number, .lit [' ', 'a', 'y', ' ', 'o', 'n', 'c'], .cls false [.rng 'Ə' 'Ə', .rng 'ə' 'ə']], .seqs [.number, .lit [' ', 'i', 'l', ' ', 'o', 'n', 'c'], .cls false [.rng 'Ə' 'Ə', .rng 'ə' 'ə']]]), .grp 3 (.alts [.eos, .cls true [.letter, .mark, .digit], .lit ['_']])], 3),
  rxExact := some (.seqs [.bos, .grp 1 (.alts [.seqs [.number, .lit [' ', 'd'], .cls false [.rng 'Ə' 'Ə', .rng 'ə' 'ə'], .lit ['q', 'i', 'q'], .cls false [.rng 'Ə' 'Ə', .rng 'ə' 'ə'], .lit [' '], .cls false [.rng 'Ə' 'Ə', .rng 'ə' 'ə'], .lit ['r', 'z', 'i', 'n', 'd'], .cls false [.rng 'Ə' 'Ə', .rng 'ə' 'ə']], .seqs [.number, .lit [' ', 's', 'a', 'n', 'i', 'y'], .cls false [.rng 'Ə' 'Ə', .rng 'ə' 'ə'], .lit [' '], .cls false [.rng 'Ə' 'Ə', .rng 'ə' 'ə'], .lit ['r', 'z', 'i', 'n', 'd'], .cls false [.rng 'Ə' 'Ə', .rng 'ə' 'ə']], .seqs [.number, .lit [' ', 'h'], .cls false [.rng 'Ə' 'Ə', .rng 'ə' 'ə'], .lit ['f', 't'], .cls false [.rng 'Ə' 'Ə', .rng 'ə' 'ə'], .lit [' '], .cls false [.rng 'Ə' 'Ə', .rng 'ə' 'ə'], .lit ['r', 'z', 'i', 'n', 'd'], .cls false [.rng 'Ə' 'Ə', .rng 'ə' 'ə']], .seqs [.number, .lit [' ', 's', 'a', 'a', 't', ' '], .cls false [.rng 'Ə' 'Ə', .rng 'ə' 'ə'], .lit ['r', 'z', 'i', 'n', 'd'], .cls false [.rng 'Ə' 'Ə', .rng 'ə' 'ə']], .seqs [.number, .lit [' ', 'd'], .cls false [.rng 'Ə' 'Ə', .rng 'ə' 'ə'], .lit ['q', 'i', 'q'], .cls false [.rng 'Ə' 'Ə', .rng 'ə' 'ə'], .lit [' ', 'o', 'n', 'c'], .cls false [.rng 'Ə' 'Ə', .rng 'ə' 'ə']], .seqs [.number, .lit [' ', 'g', 'u', 'n', ' '], .cls false [.rng 'Ə' 'Ə', .rng 'ə' 'ə'], .lit ['r', 'z', 'i', 'n', 'd'], .cls false [.rng 'Ə' 'Ə', .rng 'ə' 'ə']], .seqs [.number, .lit [' ', 's', 'a', 'n', 'i', 'y'], .cls false [.rng 'Ə' 'Ə', .rng 'ə' 'ə'], .lit [' ', 'o', 'n', 'c'], .cls false [.rng 'Ə' 'Ə', .rng 'ə' 'ə']], .seqs [.number, .lit [' ', 'a', 'y', ' '], .cls false [.rng 'Ə' 'Ə', .rng 'ə' 'ə'], .lit ['r', 'z', 'i', 'n', 'd'], .cls false [.rng 'Ə' 'Ə', .rng 'ə' 'ə']], .seqs [.number, .lit [' ', 'h'], .cls false [.rng 'Ə' 'Ə', .rng 'ə' 'ə'], .lit ['f', 't'], .cls false [.rng 'Ə' 'Ə', .rng 'ə' 'ə'], .lit [' ', 'o', 'n', 'c'], .cls false [.rng 'Ə' 'Ə', .rng 'ə' 'ə']], .seqs [.number, .lit [' ', 'i', 'l', ' '], .cls false [.rng 'Ə' 'Ə', .rng 'ə' 'ə'], .lit ['r', 'z', 'i', 'n', 'd'], .cls false [.rng 'Ə' 'Ə', .rng 'ə' 'ə']], .seqs [.number, .lit [' ', 's', 'a', 'a', 't', ' ', 'o', 'n', 'c'], .cls false [.rng 'Ə' 'Ə', .rng 'ə' 'ə']], .seqs [.number, .lit [' ', 'g', 'u', 'n', ' ', 'o', 'n', 'c'], .cls false [.rng 'Ə' 'Ə', .rng 'ə' 'ə']], .seqs [.number, .lit [' ', 'a', 'y', ' ', 'o', 'n', 'c'], .cls false [.rng 'Ə' 'Ə', .rng 'ə' 'ə']], .seqs [.number, .lit [' ', 'i', 'l', ' ', 'o', 'n', 'c'], .cls false [.rng 'Ə' 'Ə', .rng 'ə' 'ə']]]), .eos]),
  knownWords :=
   [['c', 'ə', 'r', 's', 'ə', 'n', 'b', 'ə', ' ', 'a', 'x', 's', 'a', 'm', 'ı'], ['b', 'a', 'z', 'a', 'r', ' ', 'e', 'r', 't', 'ə', 's', 'i'], ['c', 'u', 'm', 'ə', ' ', 'a', 'x', 's', 'a', 'm', 'ı'], ['g', 'ə', 'l', 'ə', 'n', ' ', 'h', 'ə', 'f', 't', 'ə'], ['k', 'e', 'c', 'ə', 'n', ' ', 'h', 'ə', 'f', 't', 'ə'], ['b', 'u', ' ', 'd', 'ə', 'q', 'i', 'q', 'ə'], ['b', 'u', ' ', 'h', 'ə', 'f', 't', 'ə'], ['c', 'ə', 'r', 's', 'ə', 'n', 'b', 'ə'], ['g', 'ə', 'l', 'ə', 'n', ' ', 'a', 'y'], ['g', 'ə', 'l', 'ə', 'n', ' ', 'i', 'l'], ['k', 'e', 'c', 'ə', 'n', ' ', 'a', 'y'], ['k', 'e', 'c', 'ə', 'n', ' ', 'i', 'l'], ['s', 'e', 'n', 't', 'y', 'a', 'b', 'r'], ['b', 'u', ' ', 's', 'a', 'a', 't'], ['o', 'k', 't', 'y', 'a', 'b', 'r'], ['a', 'v', 'q', 'u', 's', 't'], ['b', 'u', ' ', 'g', 'u', 'n'], ['d', 'e', 'k', 'a', 'b', 'r'], ['d', 'ə', 'q', 'i', 'q', 'ə'], ['f', 'e', 'v', 'r', 'a', 'l'], ['n', 'o', 'y', 'a', 'b', 'r'], ['s', 'a', 'n', 'i', 'y', 'ə'], ['y', 'a', 'n', 'v', 'a', 'r'], ['a', 'p', 'r', 'e', 'l'], ['b', 'a', 'z', 'a', 'r'], ['b', 'u', ' ', 'a', 'y'], ['b', 'u', ' ', 'i', 'l'], ['d', 'u', 'n', 'ə', 'n'], ['h', 'ə', 'f', 't', 'ə'], ['s', 'a', 'b', 'a', 'h'], ['s', 'ə', 'n', 'b', 'ə'], ['c', 'u', 'm', 'ə'], ['i', 'n', 'd', 'i'], ['i', 'y', 'u', 'l'], ['i', 'y', 'u', 'n'], ['m', 'a', 'r', 't'], ['s', 'a', 'a', 't'], ['a', 'p', 'r'], ['a', 'v', 'q'], ['d', 'e', 'k'], ['d', 'ə', 'q'], ['f', 'e', 'v'], ['g', 'm', 't'], ['g', 'u', 'n'], ['i', 'y', 'l'], ['i', 'y', 'n'], ['m', 'a', 'r'], ['m', 'a', 'y'], ['n', 'o', 'y'], ['o', 'k', 't'], ['s', 'a', 'n'], ['s', 'e', 'n'], ['u', 't', 'c'], ['y', 'a', 'n'], ['a', 'm'], ['a', 'y'], ['b', 'e'], ['c', 'a'], ['i', 'l'], ['p', 'm'], [' '], ['\''], ['+'], [','], ['-'], ['.'], ['/'], [':'], [';'], ['@'], ['['], [']'], ['b'], ['c'], ['s'], ['z'], ['|']] }

/-- internal/data/az.go: `az_Locale`. -/
def azLang : LangData := { azDict with
  relativeRegexes :=
   [(.seqs [.grp 1 (.number), .lit [' ', 'd'], .cls false [.rng 'Ə' 'Ə', .rng 'ə' 'ə'], .lit ['q', 'i', 'q'], .cls false [.rng 'Ə' 'Ə', .rng 'ə' 'ə'], .lit [' '], .cls false [.rng 'Ə' 'Ə', .rng 'ə' 'ə'], .lit ['r', 'z', 'i', 'n', 'd'], .cls false [.rng 'Ə' 'Ə', .rng 'ə' 'ə']], [.lit ['i', 'n', ' '], .ref 1, .lit [' ', 'm', 'i', 'n', 'u', 't', 'e']]),
    (.seqs [.grp 1 (.number), .lit [' ', 's', 'a', 'n', 'i', 'y'], .cls false [.rng 'Ə' 'Ə', .rng 'ə' 'ə'], .lit [' '], .cls false [.rng 'Ə' 'Ə', .rng 'ə' 'ə'], .lit ['r', 'z', 'i', 'n', 'd'], .cls false [.rng 'Ə' 'Ə', .rng 'ə' 'ə']], [.lit ['i', 'n', ' '], .ref 1, .lit [' ', 's', 'e', 'c', 'o', 'n', 'd']]),
    (.seqs [.grp 1 (.number), .lit [' ', 'h'], .cls false [.rng 'Ə' 'Ə', .rng 'ə' 'ə'], .lit ['f', 't'], .cls false [.rng 'Ə' 'Ə', .rng 'ə' 'ə'], .lit [' '], .cls false [.rng 'Ə' 'Ə', .rng 'ə' 'ə'], .lit ['r', 'z', 'i', 'n', 'd'], .cls false [.rng 'Ə' 'Ə', .rng 'ə' 'ə']], [.lit ['i', 'n', ' '], .ref 1, .lit [' ', 'w', 'e', 'e', 'k']]),
    (.seqs [.grp 1 (.number), .lit [' ', 's', 'a', 'a', 't', ' '], .cls false [.rng 'Ə' 'Ə', .rng 'ə' 'ə'], .lit ['r', 'z', 'i', 'n', 'd'], .cls false [.rng 'Ə' 'Ə', .rng 'ə' 'ə']], [.lit ['i', 'n', ' '], .ref 1, .lit [' ', 'h', 'o', 'u', 'r']]),
    (.seqs [.grp 1 (.number), .lit [' ', 'd'], .cls false [.rng 'Ə' 'Ə', .rng 'ə' 'ə'], .lit ['q', 'i', 'q'], .cls false [.rng 'Ə' 'Ə', .rng 'ə' 'ə'], .lit [' ', 'o', 'n', 'c'], .cls false [.rng 'Ə' 'Ə', .rng 'ə' 'ə']], [.ref 1, .lit [' ', 'm', 'i', 'n', 'u', 't', 'e', ' ', 'a', 'g', 'o']]),
    (.seqs [.grp 1 (.number), .lit [' ', 'g', 'u', 'n', ' '], .cls false [.rng 'Ə' 'Ə', .rng 'ə' 'ə'], .lit ['r', 'z', 'i', 'n', 'd'], .cls false [.rng 'Ə' 'Ə', .rng 'ə' 'ə']], [.lit ['i', 'n', ' '], .ref 1, .lit [' ', 'd', 'a', 'y']]),
    (.seqs [.grp 1 (.number), .lit [' ', 's', 'a', 'n', 'i', 'y'], .cls false [.rng 'Ə' 'Ə', .rng 'ə' 'ə'], .lit [' ', 'o', 'n', 'c'], .cls false [.rng 'Ə' 'Ə', .rng 'ə' 'ə']], [.ref 1, .lit [' ', 's', 'e', 'c', 'o', 'n', 'd', ' ', 'a', 'g', 'o']]),
    (.seqs [.grp 1 (.number), .lit [' ', 'a', 'y', ' '], .cls false [.rng 'Ə' 'Ə', .rng 'ə' 'ə'], .lit ['r', 'z', 'i', 'n', 'd'], .cls false [.rng 'Ə' 'Ə', .rng 'ə' 'ə']], [.lit ['i', 'n', ' '], .ref 1, .lit [' ', 'm', 'o', 'n', 't', 'h']]),
    (.seqs [.grp 1 (.number), .lit [' ', 'h'], .cls false [.rng 'Ə' 'Ə', .rng 'ə' 'ə'], .lit ['f', 't'], .cls false [.rng 'Ə' 'Ə', .rng 'ə' 'ə'], .lit [' ', 'o', 'n', 'c'], .cls false [.rng 'Ə' 'Ə', .rng 'ə' 'ə']], [.ref 1, .lit [' ', 'w', 'e', 'e', 'k', ' ', 'a', 'g', 'o']]),
    (.seqs [.grp 1 (.number), .lit [' ', 'i', 'l', ' '], .cls false [.rng 'Ə' 'Ə', .rng 'ə' 'ə'], .lit ['r', 'z', 'i', 'n', 'd'], .cls false [.rng 'Ə' 'Ə', .rng 'ə' 'ə']], [.lit ['i', 'n', ' '], .ref 1, .lit [' ', 'y', 'e', 'a', 'r']]),
    (.seqs [.grp 1 (.number), .lit [' ', 's', 'a', 'a', 't', ' ', 'o', 'n', 'c'], .cls false [.rng 'Ə' 'Ə', .rng 'ə' 'ə']], [.ref 1, .lit [' ', 'h', 'o', 'u', 'r', ' ', 'a', 'g', 'o']]),
    (.seqs [.grp 1 (.number), .lit [' ', 'g', 'u', 'n', ' ', 'o', 'n', 'c'], .cls false [.rng 'Ə' 'Ə', .rng 'ə' 'ə']], [.ref 1, .lit [' ', 'd', 'a', 'y', ' ', 'a', 'g', 'o']]),
    (.seqs [.grp 1 (.number), .lit [' ', 'a', 'y', ' ', 'o', 'n', 'c'], .cls false [.rng 'Ə' 'Ə', .rng 'ə' 'ə']], [.ref 1, .lit [' ', 'm', 'o', 'n', 't', 'h', ' ', 'a', 'g', 'o']]),
    (.seqs [.grp 1 (.number), .lit [' ', 'i', 'l', ' ', 'o', 'n', 'c'], .cls false [.rng 'Ə' 'Ə', .rng 'ə' 'ə']], [.ref 1, .lit [' ', 'y', 'e', 'a', 'r', ' ', 'a', 'g', 'o']])],
  rxCombined := some (.seqs [.grp 1 (.alts [.bos, .cls true [.letter, .mark, .digit], .lit ['_']]), .grp 2 (.alts [.seqs [.number, .lit [' ', 'd'], .cls false [.rng 'Ə' 'Ə', .rng 'ə' 'ə'], .lit ['q', 'i', 'q'], .cls false [.rng 'Ə' 'Ə', .rng 'ə' 'ə'], .lit [' '], .cls false [.rng 'Ə' 'Ə', .rng 'ə' 'ə'], .lit ['r', 'z', 'i', 'n', 'd'], .cls false [.rng 'Ə' 'Ə', .rng 'ə' 'ə']], .seqs [.number, .lit [' ', 's', 'a', 'n', 'i', 'y'], .cls false [.rng 'Ə' 'Ə', .rng 'ə' 'ə'], .lit [' '], .cls false [.rng 'Ə' 'Ə', .rng 'ə' 'ə'], .lit ['r', 'z', 'i', 'n', 'd'], .cls false [.rng 'Ə' 'Ə', .rng 'ə' 'ə']], .seqs [.number, .lit [' ', 'h'], .cls false [.rng 'Ə' 'Ə', .rng 'ə' 'ə'], .lit ['f', 't'], .cls false [.rng 'Ə' 'Ə', .rng 'ə' 'ə'], .lit [' '], .cls false [.rng 'Ə' 'Ə', .rng 'ə' 'ə'], .lit ['r', 'z', 'i', 'n', 'd'], .cls false [.rng 'Ə' 'Ə', .rng 'ə' 'ə']], .seqs [.number, .lit [' ', 's', 'a', 'a', 't', ' '], .cls false [.rng 'Ə' 'Ə', .rng 'ə' 'ə'], .lit ['r', 'z', 'i', 'n', 'd'], .cls false [.rng 'Ə' 'Ə', .rng 'ə' 'ə']], .seqs [.number, .lit [' ', 'd'], .cls false [.rng 'Ə' 'Ə', .rng 'ə' 'ə'], .lit ['q', 'i', 'q'], .cls false [.rng 'Ə' 'Ə', .rng 'ə' 'ə'], .lit [' ', 'o', 'n', 'c'], .cls false [.rng 'Ə' 'Ə', .rng 'ə' 'ə']], .seqs [.number, .lit [' ', 'g', 'u', 'n', ' '], .cls false [.rng 'Ə' 'Ə', .rng 'ə' 'ə'], .lit ['r', 'z', 'i', 'n', 'd'], .cls false [.rng 'Ə' 'Ə', .rng 'ə' 'ə']], .seqs [.number, .lit [' ', 's', 'a', 'n', 'i', 'y'], .cls false [.rng 'Ə' 'Ə', .rng 'ə' 'ə'], .lit [' ', 'o', 'n', 'c'], .cls false [.rng 'Ə' 'Ə', .rng 'ə' 'ə']], .seqs [.number, .lit [' ', 'a', 'y', ' '], .cls false [.rng 'Ə' 'Ə', .rng 'ə' 'ə'], .lit ['r', 'z', 'i', 'n', 'd'], .cls false [.rng 'Ə' 'Ə', .rng 'ə' 'ə']], .seqs [.number, .lit [' ', 'h'], .cls false [.rng 'Ə' 'Ə', .rng 'ə' 'ə'], .lit ['f', 't'], .cls false [.rng 'Ə' 'Ə', .rng 'ə' 'ə'], .lit [' ', 'o', 'n', 'c'], .cls false [.rng 'Ə' 'Ə', .rng 'ə' 'ə']], .seqs [.number, .lit [' ', 'i', 'l', ' '], .cls false [.rng 'Ə' 'Ə', .rng 'ə' 'ə'], .lit ['r', 'z', 'i', 'n', 'd'], .cls false [.rng 'Ə' 'Ə', .rng 'ə' 'ə']], .seqs [.number, .lit [' ', 's', 'a', 'a', 't', ' ', 'o', 'n', 'c'], .cls false [.rng 'Ə' 'Ə', .rng 'ə' 'ə']], .seqs [.number, .lit [' ', 'g', 'u', 'n', ' ', 'o', 'n', 'c'], .cls false [.rng 'Ə' 'Ə', .rng 'ə' 'ə']], .seqs [.number, .lit [' ', 'a', 'y', ' ', 'o', 'n', 'c'], .cls false [.rng 'Ə' 'Ə', .rng 'ə' 'ə']], .seqs [.number, .lit [' ', 'i', 'l', ' ', 'o', 'n', 'c'], .cls false [.rng 'Ə' 'Ə', .rng 'ə' 'ə']]]), .grp 3 (.alts [.eos, .cls true [.letter, .mark, .digit], .lit ['_']])], 3),
  rxExact := some (.seqs [.bos, .grp 1 (.alts [.seqs [.number, .lit [' ', 'd'], .cls false [.rng 'Ə' 'Ə', .rng 'ə' 'ə'], .lit ['q', 'i', 'q'], .cls false [.rng 'Ə' 'Ə', .rng 'ə' 'ə'], .lit [' '], .cls false [.rng 'Ə' 'Ə', .rng 'ə' 'ə'], .lit ['r', 'z', 'i', 'n', 'd'], .cls false [.rng 'Ə' 'Ə', .rng 'ə' 'ə']], .seqs [.number, .lit [' ', 's', 'a', 'n', 'i', 'y'], .cls false [.rng 'Ə' 'Ə', .rng 'ə' 'ə'], .lit [' '], .cls false [.rng 'Ə' 'Ə', .rng 'ə' 'ə'], .lit ['r', 'z', 'i', 'n', 'd'], .cls false [.rng 'Ə' 'Ə', .rng 'ə' 'ə']], .seqs [.number, .lit [' ', 'h'], .cls false [.rng 'Ə' 'Ə', .rng 'ə' 'ə'], .lit ['f', 't'], .cls false [.rng 'Ə' 'Ə', .rng 'ə' 'ə'], .lit [' '], .cls false [.rng 'Ə' 'Ə', .rng 'ə' 'ə'], .lit ['r', 'z', 'i', 'n', 'd'], .cls false [.rng 'Ə' 'Ə', .rng 'ə' 'ə']], .seqs [.number, .lit [' ', 's', 'a', 'a', 't', ' '], .cls false [.rng 'Ə' 'Ə', .rng 'ə' 'ə'], .lit ['r', 'z', 'i', 'n', 'd'], .cls false [.rng 'Ə' 'Ə', .rng 'ə' 'ə']], .seqs [.number, .lit [' ', 'd'], .cls false [.rng 'Ə' 'Ə', .rng 'ə' 'ə'], .lit ['q', 'i', 'q'], .cls false [.rng 'Ə' 'Ə', .rng 'ə' 'ə'], .lit [' ', 'o', 'n', 'c'], .cls false [.rng 'Ə' 'Ə', .rng 'ə' 'ə']], .seqs [.number, .lit [' ', 'g', 'u', 'n', ' '], .cls false [.rng 'Ə' 'Ə', .rng 'ə' 'ə'], .lit ['r', 'z', 'i', 'n', 'd'], .cls false [.rng 'Ə' 'Ə', .rng 'ə' 'ə']], .seqs [.number, .lit [' ', 's', 'a', 'n', 'i', 'y'], .cls false [.rng 'Ə' 'Ə', .rng 'ə' 'ə'], .lit [' ', 'o', 'n', 'c'], .cls false [.rng 'Ə' 'Ə', .rng 'ə' 'ə']], .seqs [.number, .lit [' ', 'a', 'y', ' '], .cls false [.rng 'Ə' 'Ə', .rng 'ə' 'ə'], .lit ['r', 'z', 'i', 'n', 'd'], .cls false [.rng 'Ə' 'Ə', .rng 'ə' 'ə']], .seqs [.number, .lit [' ', 'h'], .cls false [.rng 'Ə' 'Ə', .rng 'ə' 'ə'], .lit ['f', 't'], .cls false [.rng 'Ə' 'Ə', .rng 'ə' 'ə'], .lit [' ', 'o', 'n', 'c'], .cls false [.rng 'Ə' 'Ə', .rng 'ə' 'ə']], .seqs [.number, .lit [' ', 'i', 'l', ' '], .cls false [.rng 'Ə' 'Ə', .rng 'ə' 'ə'], .lit ['r', 'z', 'i', 'n', 'd'], .cls false [.rng 'Ə' 'Ə', .rng 'ə' 'ə']], .seqs [.number, .lit [' ', 's', 'a', 'a', 't', ' ', 'o', 'n', 'c'], .cls false [.rng 'Ə' 'Ə', .rng 'ə' 'ə']], .seqs [.number, .lit [' ', 'g', 'u', 'n', ' ', 'o', 'n', 'c'], .cls false [.rng 'Ə' 'Ə', .rng 'ə' 'ə']], .seqs [.number, .lit [' ', 'a', 'y', ' ', 'o', 'n', 'c'], .cls false [.rng 'Ə' 'Ə', .rng 'ə' 'ə']], .seqs [.number, .lit [' ', 'i', 'l', ' ', 'o', 'n', 'c'], .cls false [.rng 'Ə' 'Ə', .rng 'ə' 'ə']]]), .eos]),
  knownWords :=
   [['c', 'ə', 'r', 's', 'ə', 'n', 'b', 'ə', ' ', 'a', 'x', 's', 'a', 'm', 'ı'], ['b', 'a', 'z', 'a', 'r', ' ', 'e', 'r', 't', 'ə', 's', 'i'], ['c', 'u', 'm', 'ə', ' ', 'a', 'x', 's', 'a', 'm', 'ı'], ['g', 'ə', 'l', 'ə', 'n', ' ', 'h', 'ə', 'f', 't', 'ə'], ['k', 'e', 'c', 'ə', 'n', ' ', 'h', 'ə', 'f', 't', 'ə'], ['b', 'u', ' ', 'd', 'ə', 'q', 'i', 'q', 'ə'], ['b', 'u', ' ', 'h', 'ə', 'f', 't', 'ə'], ['c', 'ə', 'r', 's', 'ə', 'n', 'b', 'ə'], ['g', 'ə', 'l', 'ə', 'n', ' ', 'a', 'y'], ['g', 'ə', 'l', 'ə', 'n', ' ', 'i', 'l'], ['k', 'e', 'c', 'ə', 'n', ' ', 'a', 'y'], ['k', 'e', 'c', 'ə', 'n', ' ', 'i', 'l'], ['s', 'e', 'n', 't', 'y', 'a', 'b', 'r'], ['b', 'u', ' ', 's', 'a', 'a', 't'], ['o', 'k', 't', 'y', 'a', 'b', 'r'], ['a', 'v', 'q', 'u', 's', 't'], ['b', 'u', ' ', 'g', 'u', 'n'], ['d', 'e', 'k', 'a', 'b', 'r'], ['d', 'ə', 'q', 'i', 'q', 'ə'], ['f', 'e', 'v', 'r', 'a', 'l'], ['n', 'o', 'y', 'a', 'b', 'r'], ['s', 'a', 'n', 'i', 'y', 'ə'], ['y', 'a', 'n', 'v', 'a', 'r'], ['a', 'p', 'r', 'e', 'l'], ['b', 'a', 'z', 'a', 'r'], ['b', 'u', ' ', 'a', 'y'], ['b', 'u', ' ', 'i', 'l'], ['d', 'u', 'n', 'ə', 'n'], ['h', 'ə', 'f', 't', 'ə'], ['s', 'a', 'b', 'a', 'h'], ['s', 'ə', 'n', 'b', 'ə'], ['c', 'u', 'm', 'ə'], ['i', 'n', 'd', 'i'], ['i', 'y', 'u', 'l'], ['i', 'y', 'u', 'n'], ['m', 'a', 'r', 't'], ['s', 'a', 'a', 't'], ['a', 'p', 'r'], ['a', 'v', 'q'], ['d', 'e', 'k'], ['d', 'ə', 'q'], ['f', 'e', 'v'], ['g', 'm', 't'], ['g', 'u', 'n'], ['i', 'y', 'l'], ['i', 'y', 'n'], ['m', 'a', 'r'], ['m', 'a', 'y'], ['n', 'o', 'y'], ['o', 'k', 't'], ['s', 'a', 'n'], ['s', 'e', 'n'], ['u', 't', 'c'], ['y', 'a', 'n'], ['a', 'm'], ['a', 'y'], ['b', 'e'], ['c', 'a'], ['i', 'l'], ['p', 'm'], [' '], ['\''], ['+'], [','], ['-'], ['.'], ['/'], [':'], [';'], ['@'], ['['], [']'], ['b'], ['c'], ['s'], ['z'], ['|']] }

/-- internal/data/bas.go: `bas_Locale`. -/
def basLang : LangData := { basDict with
  knownWords :=
   [['ŋ', 'g', 'w', 'a', ' ', 'n', 'j', 'a', 'ŋ', 'g', 'u', 'm', 'b', 'a'], ['l', 'i', 'b', 'u', 'y', ' ', 'l', 'i', ' ', 'n', 'y', 'e', 'e'], ['t', 'h', 'i', 's', ' ', 'm', 'i', 'n', 'u', 't', 'e'], ['l', 'a', 's', 't', ' ', 'm', 'o', 'n', 't', 'h'], ['n', 'e', 'x', 't', ' ', 'm', 'o', 'n', 't', 'h'], ['t', 'h', 'i', 's', ' ', 'm', 'o', 'n', 't', 'h'], ['h', 'i', 'ŋ', 'g', 'e', 'ŋ', 'g', 'e', 't'], ['i', ' ', 'b', 'i', 'k', 'ɛ', 'g', 'l', 'a'], ['i', ' ', 'ɓ', 'u', 'g', 'a', 'j', 'ɔ', 'p'], ['l', 'a', 's', 't', ' ', 'w', 'e', 'e', 'k'], ['l', 'a', 's', 't', ' ', 'y', 'e', 'a', 'r'], ['n', 'e', 'x', 't', ' ', 'w', 'e', 'e', 'k'], ['n', 'e', 'x', 't', ' ', 'y', 'e', 'a', 'r'], ['t', 'h', 'i', 's', ' ', 'h', 'o', 'u', 'r'], ['t', 'h', 'i', 's', ' ', 'w', 'e', 'e', 'k'], ['t', 'h', 'i', 's', ' ', 'y', 'e', 'a', 'r'], ['ŋ', 'g', 'w', 'a', ' ', 'm', 'b', 'ɔ', 'k'], ['ŋ', 'g', 'w', 'a', ' ', 'j', 'o', 'n'], ['ŋ', 'g', 'w', 'a', ' ', 'k', 'ɔ', 'ɔ'], ['ŋ', 'g', 'w', 'a', ' ', 'n', 'ɔ', 'y'], ['ŋ', 'g', 'w', 'a', ' ', 'ŋ', 'g', 'e'], ['h', 'i', 'l', 'o', 'n', 'd', 'ɛ'], ['m', 'a', 'y', 'ɛ', 's', 'e', 'p'], ['ŋ', 'g', 'w', 'a', ' ', 'u', 'm'], ['k', 'ɔ', 'n', 'd', 'ɔ', 'ŋ'], ['m', 'a', 't', 'u', 'm', 'b'], ['b', 'i', 'o', 'o', 'm'], ['d', 'i', 'p', 'ɔ', 's'], ['h', 'i', 'k', 'a', 'ŋ'], ['m', 'a', 'c', 'ɛ', 'l'], ['m', 'a', 't', 'o', 'p'], ['m', 'p', 'u', 'y', 'ɛ'], ['n', 'j', 'e', 'b', 'a'], ['s', 'ɔ', 'n', 'd', 'ɛ'], ['y', 'a', 'a', 'n', 'i'], ['y', 'a', 'n', 'i'], ['ŋ', 'g', 'e', 't'], ['ŋ', 'g', 'ɛ', 'ŋ'], ['ŋ', 'w', 'i', 'i'], ['b', 'i', 'o'], ['d', 'i', 'p'], ['g', 'm', 't'], ['h', 'i', 'k'], ['h', 'i', 'l'], ['j', 'o', 'n'], ['k', 'ɔ', 'n'], ['k', 'ɔ', 'ɔ'], ['k', 'ɛ', 'l'], ['l', 'i', 'ɓ'], ['l', 'ɛ', 'n'], ['m', 'a', 'c'], ['m', 'a', 't'], ['m', 'a', 'y'], ['m', 'b', 'ɔ'], ['m', 'p', 'u'], ['m', 't', 'o'], ['n', 'j', 'a'], ['n', 'j', 'e'], ['n', 'o', 'w'], ['n', 'ɔ', 'y'], ['s', 'o', 'ŋ'], ['u', 't', 'c'], ['u', 'u', 'm'], ['ŋ', 'g', 'e'], ['a', 'm'], ['p', 'm'], [' '], ['\''], ['+'], [','], ['-'], ['.'], ['/'], [':'], [';'], ['@'], ['['], [']'], ['z'], ['|']] }

/-- internal/data/be.go: `be_Locale`. -/
def beLang : LangData := { beDict with
  simplifications :=
   [(.seqs [.grp 1 (.alts [.bos, .noWord]), .bos, .cls false [.rng 'Г' 'Г', .rng 'г' 'г'], .cls false [.rng 'А' 'А', .rng 'а' 'а'], .cls false [.rng 'Д' 'Д', .rng 'д' 'д', .rng 'ᲁ' 'ᲁ'], .cls false [.rng 'З' 'З', .rng 'з' 'з'], .cls false [.rng 'І' 'І', .rng 'і' 'і'], .cls false [.rng 'Н' 'Н', .rng 'н' 'н'], .cls false [.rng 'А' 'А', .rng 'а' 'а'], .grp 2 (.alts [.eos, .noWord])], [.ref 1, .lit ['1', ' ', 'г', 'а', 'д', 'з', 'і', 'н', 'а'], .ref 2]),
    (.seqs [.grp 1 (.alts [.bos, .noWord]), .cls false [.rng 'Г' 'Г', .rng 'г' 'г'], .cls false [.rng 'А' 'А', .rng 'а' 'а'], .cls false [.rng 'Д' 'Д', .rng 'д' 'д', .rng 'ᲁ' 'ᲁ'], .cls false [.rng 'З' 'З', .rng 'з' 'з'], .cls false [.rng 'І' 'І', .rng 'і' 'і'], .cls false [.rng 'Н' 'Н', .rng 'н' 'н'], .cls false [.rng 'У' 'У', .rng 'у' 'у'], .grp 2 (.alts [.eos, .noWord])], [.ref 1, .lit ['1', ' ', 'г', 'а', 'д', 'з', 'і', 'н', 'у'], .ref 2]),
    (.seqs [.grp 1 (.alts [.bos, .noWord]), .bos, .cls false [.rng 'Х' 'Х', .rng 'х' 'х'], .cls false [.rng 'В' 'В', .rng 'в' 'в', .rng 'ᲀ' 'ᲀ'], .cls false [.rng 'І' 'І', .rng 'і' 'і'], .cls false [.rng 'Л' 'Л', .rng 'л' 'л'], .cls false [.rng 'І' 'І', .rng 'і' 'і'], .cls false [.rng 'Н' 'Н', .rng 'н' 'н'], .cls false [.rng 'У' 'У', .rng 'у' 'у'], .grp 2 (.alts [.eos, .noWord])], [.ref 1, .lit ['1', ' ', 'х', 'в', 'і', 'л', 'і', 'н', 'у'], .ref 2]),
    (.seqs [.grp 1 (.alts [.bos, .noWord]), .bos, .cls false [.rng 'С' 'С', .rng 'с' 'с', .rng 'ᲃ' 'ᲃ'], .cls false [.rng 'Е' 'Е', .rng 'е' 'е'], .cls false [.rng 'К' 'К', .rng 'к' 'к'], .cls false [.rng 'У' 'У', .rng 'у' 'у'], .cls false [.rng 'Н' 'Н', .rng 'н' 'н'], .cls false [.rng 'Д' 'Д', .rng 'д' 'д', .rng 'ᲁ' 'ᲁ'], .cls false [.rng 'У' 'У', .rng 'у' 'у'], .grp 2 (.alts [.eos, .noWord])], [.ref 1, .lit ['1', ' ', 'с', 'е', 'к', 'у', 'н', 'д', 'у'], .ref 2]),
    (.seqs [.grp 1 (.alts [.bos, .noWord]), .cls false [.rng 'Н' 'Н', .rng 'н' 'н'], .cls false [.rng 'Е' 'Е', .rng 'е' 'е'], .cls false [.rng 'К' 'К', .rng 'к' 'к'], .cls false [.rng 'А' 'А', .rng 'а' 'а'], .cls false [.rng 'Л' 'Л', .rng 'л' 'л'], .cls false [.rng 'Ь' 'Ь', .rng 'ь' 'ь'], .cls false [.rng 'К' 'К', .rng 'к' 'к'], .cls false [.rng 'І' 'І', .rng 'і' 'і'], .lit [' '], .cls false [.rng 'С' 'С', .rng 'с' 'с', .rng 'ᲃ' 'ᲃ'], .cls false [.rng 'Е' 'Е', .rng 'е' 'е'], .cls false [.rng 'К' 'К', .rng 'к' 'к'], .cls false [.rng 'У' 'У', .rng 'у' 'у'], .cls false [.rng 'Н' 'Н', .rng 'н' 'н'], .cls false [.rng 'Д' 'Д', .rng 'д' 'д', .rng 'ᲁ' 'ᲁ'], .grp 2 (.alts [.eos, .noWord])], [.ref 1, .lit ['4', '4', ' ', 'с', 'е', 'к', 'у', 'н', 'д', 'ы'], .ref 2]),
    (.seqs [.grp 1 (.alts [.bos, .noWord]), .cls false [.rng 'Н' 'Н', .rng 'н' 'н'], .cls false [.rng 'Е' 'Е', .rng 'е' 'е'], .cls false [.rng 'К' 'К', .rng 'к' 'к'], .cls false [.rng 'А' 'А', .rng 'а' 'а'], .cls false [.rng 'Л' 'Л', .rng 'л' 'л'], .cls false [.rng 'Ь' 'Ь', .rng 'ь' 'ь'], .cls false [.rng 'К' 'К', .rng 'к' 'к'], .cls false [.rng 'І' 'І', .rng 'і' 'і'], .lit [' '], .cls false [.rng 'Х' 'Х', .rng 'х' 'х'], .cls false [.rng 'В' 'В', .rng 'в' 'в', .rng 'ᲀ' 'ᲀ'], .cls false [.rng 'І' 'І', .rng 'і' 'і'], .cls false [.rng 'Л' 'Л', .rng 'л' 'л'], .cls false [.rng 'І' 'І', .rng 'і' 'і'], .cls false [.rng 'Н' 'Н', .rng 'н' 'н'], .grp 2 (.alts [.eos, .noWord])], [.ref 1, .lit ['2', ' ', 'х', 'в', 'і', 'л', 'і', 'н', 'ы'], .ref 2]),
    (.seqs [.grp 1 (.alts [.bos, .noWord]), .grp 2 (.number), .star (.cls false [.space]), .cls false [.rng 'Г' 'Г', .rng 'г' 'г'], .cls false [.rng 'А' 'А', .rng 'а' 'а'], .cls false [.rng 'Д' 'Д', .rng 'д' 'д', .rng 'ᲁ' 'ᲁ'], .cls false [.rng 'З' 'З', .rng 'з' 'з'], .cls false [.rng 'І' 'І', .rng 'і' 'і'], .cls false [.rng 'Н' 'Н', .rng 'н' 'н'], .cls false [.space], .grp 3 (.number), .star (.cls false [.space]), .cls false [.rng 'Х' 'Х', .rng 'х' 'х'], .cls false [.rng 'В' 'В', .rng 'в' 'в', .rng 'ᲀ' 'ᲀ'], .cls false [.rng 'І' 'І', .rng 'і' 'і'], .cls false [.rng 'Л' 'Л', .rng 'л' 'л'], .cls false [.rng 'І' 'І', .rng 'і' 'і'], .cls false [.rng 'Н' 'Н', .rng 'н' 'н'], .grp 4 (.alts [.eos, .noWord])], [.ref 1, .ref 2, .lit [':'], .ref 3, .ref 4])],
  relativeRegexes :=
   [(.seqs [.grp 1 (.number), .lit [' '], .cls false [.rng 'Г' 'Г', .rng 'г' 'г'], .cls false [.rng 'А' 'А', .rng 'а' 'а'], .cls false [.rng 'Д' 'Д', .rng 'д' 'д', .rng 'ᲁ' 'ᲁ'], .cls false [.rng 'З' 'З', .rng 'з' 'з'], .cls false [.rng 'І' 'І', .rng 'і' 'і'], .cls false [.rng 'Н' 'Н', .rng 'н' 'н'], .cls false [.rng 'У' 'У', .rng 'у' 'у'], .lit [' '], .cls false [.rng 'Т' 'Т', .rng 'т' 'т', .rng 'ᲄ' 'ᲄ', .rng 'ᲅ' 'ᲅ'], .cls false [.rng 'А' 'А', .rng 'а' 'а'], .cls false [.rng 'М' 'М', .rng 'м' 'м'], .cls false [.rng 'У' 'У', .rng 'у' 'у']], [.ref 1, .lit [' ', 'h', 'o', 'u', 'r', ' ', 'a', 'g', 'o']]),
    (.seqs [.grp 1 (.number), .lit [' '], .cls false [.rng 'Г' 'Г', .rng 'г' 'г'], .cls false [.rng 'А' 'А', .rng 'а' 'а'], .cls false [.rng 'Д' 'Д', .rng 'д' 'д', .rng 'ᲁ' 'ᲁ'], .cls false [.rng 'З' 'З', .rng 'з' 'з'], .cls false [.rng 'І' 'І', .rng 'і' 'і'], .cls false [.rng 'Н' 'Н', .rng 'н' 'н'], .cls false [.rng 'Ы' 'Ы', .rng 'ы' 'ы'], .lit [' '], .cls false [.rng 'Т' 'Т', .rng 'т' 'т', .rng 'ᲄ' 'ᲄ', .rng 'ᲅ' 'ᲅ'], .cls false [.rng 'А' 'А', .rng 'а' 'а'], .cls false [.rng 'М' 'М', .rng 'м' 'м'], .cls false [.rng 'У' 'У', .rng 'у' 'у']], [.ref 1, .lit [' ', 'h', 'o', 'u', 'r', ' ', 'a', 'g', 'o']]),
    (.seqs [.grp 1 (.number), .lit [' '], .cls false [.rng 'С' 'С', .rng 'с' 'с', .rng 'ᲃ' 'ᲃ'], .cls false [.rng 'Е' 'Е', .rng 'е' 'е'], .cls false [.rng 'К' 'К', .rng 'к' 'к'], .cls false [.rng 'У' 'У', .rng 'у' 'у'], .cls false [.rng 'Н' 'Н', .rng 'н' 'н'], .cls false [.rng 'Д' 'Д', .rng 'д' 'д', .rng 'ᲁ' 'ᲁ'], .cls false [.rng 'У' 'У', .rng 'у' 'у'], .lit [' '], .cls false [.rng 'Т' 'Т', .rng 'т' 'т', .rng 'ᲄ' 'ᲄ', .rng 'ᲅ' 'ᲅ'], .cls false [.rng 'А' 'А', .rng 'а' 'а'], .cls false [.rng 'М' 'М', .rng 'м' 'м'], .cls false [.rng 'У' 'У', .rng 'у' 'у']], [.ref 1, .lit [' ', 's', 'e', 'c', 'o', 'n', 'd', ' ', 'a', 'g', 'o']]),
    (.seqs [.grp 1 (.number), .lit [' '], .cls false [.rng 'С' 'С', .rng 'с' 'с', .rng 'ᲃ' 'ᲃ'], .cls false [.rng 'Е' 'Е', .rng 'е' 'е'], .cls false [.rng 'К' 'К', .rng 'к' 'к'], .cls false [.rng 'У' 'У', .rng 'у' 'у'], .cls false [.rng 'Н' 'Н', .rng 'н' 'н'], .cls false [.rng 'Д' 'Д', .rng 'д' 'д', .rng 'ᲁ' 'ᲁ'], .cls false [.rng 'Ы' 'Ы', .rng 'ы' 'ы'], .lit [' '], .cls false [.rng 'Т' 'Т', .rng 'т' 'т', .rng 'ᲄ' 'ᲄ', .rng 'ᲅ' 'ᲅ'], .cls false [.rng 'А' 'А', .rng 'а' 'а'], .cls false [.rng 'М' 'М', .rng 'м' 'м'], .cls false [.rng 'У' 'У', .rng 'у' 'у']], [.ref 1, .lit [' ', 's', 'e', 'c', 'o', 'n', 'd', ' ', 'a', 'g', 'o']]),
    (.seqs [.grp 1 (.number), .lit [' '], .cls false [.rng 'Т' 'Т', .rng 'т' 'т', .rng 'ᲄ' 'ᲄ', .rng 'ᲅ' 'ᲅ'], .cls false [.rng 'Ы' 'Ы', .rng 'ы' 'ы'], .cls false [.rng 'Д' 'Д', .rng 'д' 'д', .rng 'ᲁ' 'ᲁ'], .cls false [.rng 'З' 'З', .rng 'з' 'з'], .cls false [.rng 'Е' 'Е', .rng 'е' 'е'], .cls false [.rng 'Н' 'Н', .rng 'н' 'н'], .cls false [.rng 'Ь' 'Ь', .rng 'ь' 'ь'], .lit [' '], .cls false [.rng 'Т' 'Т', .rng 'т' 'т', .rng 'ᲄ' 'ᲄ', .rng 'ᲅ' 'ᲅ'], .cls false [.rng 'А' 'А', .rng 'а' 'а'], .cls false [.rng 'М' 'М', .rng 'м' 'м'], .cls false [.rng 'У' 'У', .rng 'у' 'у']], [.ref 1, .lit [' ', 'w', 'e', 'e', 'k', ' ', 'a', 'g', 'o']]),
    (.seqs [.grp 1 (.number), .lit [' '], .cls false [.rng 'Х' 'Х', .rng 'х' 'х'], .cls false [.rng 'В' 'В', .rng 'в' 'в', .rng 'ᲀ' 'ᲀ'], .cls false [.rng 'І' 'І', .rng 'і' 'і'], .cls false [.rng 'Л' 'Л', .rng 'л' 'л'], .cls false [.rng 'І' 'І', .rng 'і' 'і'], .cls false [.rng 'Н' 'Н', .rng 'н' 'н'], .cls false [.rng 'У' 'У', .rng 'у' 'у'], .lit [' '], .cls false [.rng 'Т' 'Т', .rng 'т' 'т', .rng 'ᲄ' 'ᲄ', .rng 'ᲅ' 'ᲅ'], .cls false [.rng 'А' 'А', .rng 'а' 'а'], .cls false [.rng 'М' 'М', .rng 'м' 'м'], .cls false [.rng 'У' 'У', .rng 'у' 'у']], [.ref 1, .lit [' ', 'm', 'i', 'n', 'u', 't', 'e', ' ', 'a', 'g', 'o']]),
    (.seqs [.grp 1 (.number), .lit [' '], .cls false [.rng 'Х' 'Х', .rng 'х' 'х'], .cls false [.rng 'В' 'В', .rng 'в' 'в', .rng 'ᲀ' 'ᲀ'], .cls false [.rng 'І' 'І', .rng 'і' 'і'], .cls false [.rng 'Л' 'Л', .rng 'л' 'л'], .cls false [.rng 'І' 'І', .rng 'і' 'і'], .cls false [.rng 'Н' 'Н', .rng 'н' 'н'], .cls false [.rng 'Ы' 'Ы', .rng 'ы' 'ы'], .lit [' '], .cls false [.rng 'Т' 'Т', .rng 'т' 'т', .rng 'ᲄ' 'ᲄ', .rng 'ᲅ' 'ᲅ'], .cls false [.rng 'А' 'А', .rng 'а' 'а'], .cls false [.rng 'М' 'М', .rng 'м' 'м'], .cls false [.rng 'У' 'У', .rng 'у' 'у']], [.ref 1, .lit [' ', 'm', 'i', 'n', 'u', 't', 'e', ' ', 'a', 'g', 'o']]),
    (.seqs [.cls false [.rng 'П' 'П', .rng 'п' 'п'], .cls false [.rng 'Р' 'Р', .rng 'р' 'р'], .cls false [.rng 'А' 'А', .rng 'а' 'а'], .cls false [.rng 'З' 'З', .rng 'з' 'з'], .lit [' '], .grp 1 (.number), .lit [' '], .cls false [.rng 'Г' 'Г', .rng 'г' 'г'], .cls false [.rng 'А' 'А', .rng 'а' 'а'], .cls false [.rng 'Д' 'Д', .rng 'д' 'д', .rng 'ᲁ' 'ᲁ'], .cls false [.rng 'З' 'З', .rng 'з' 'з'], .cls false [.rng 'І' 'І', .rng 'і' 'і'], .cls false [.rng 'Н' 'Н', .rng 'н' 'н'], .cls false [.rng 'У' 'У', .rng 'у' 'у']], [.lit ['i', 'n', ' '], .ref 1, .lit [' ', 'h', 'o', 'u', 'r']]),
    (.seqs [.cls false [.rng 'П' 'П', .rng 'п' 'п'], .cls false [.rng 'Р' 'Р', .rng 'р' 'р'], .cls false [.rng 'А' 'А', .rng 'а' 'а'], .cls false [.rng 'З' 'З', .rng 'з' 'з'], .lit [' '], .grp 1 (.number), .lit [' '], .cls false [.rng 'Г' 'Г', .rng 'г' 'г'], .cls false [.rng 'А' 'А', .rng 'а' 'а'], .cls false [.rng 'Д' 'Д', .rng 'д' 'д', .rng 'ᲁ' 'ᲁ'], .cls false [.rng 'З' 'З', .rng 'з' 'з'], .cls false [.rng 'І' 'І', .rng 'і' 'і'], .cls false [.rng 'Н' 'Н', .rng 'н' 'н'], .cls false [.rng 'Ы' 'Ы', .rng 'ы' 'ы']], [.lit ['i', 'n', ' '], .ref 1, .lit [' ', 'h', 'o', 'u', 'r']]),
    (.seqs [.cls false [.rng 'П' 'П', .rng 'п' 'п'], .cls false [.rng 'Р' 'Р', .rng 'р' 'р'], .cls false [.rng 'А' 'А', .rng 'а' 'а'], .cls false [.rng 'З' 'З', .rng 'з' 'з'], .lit [' '], .grp 1 (.number), .lit [' '], .cls false [.rng 'С' 'С', .rng 'с' 'с', .rng 'ᲃ' 'ᲃ'], .cls false [.rng 'Е' 'Е', .rng 'е' 'е'], .cls false [.rng 'К' 'К', .rng 'к' 'к'], .cls false [.rng 'У' 'У', .rng 'у' 'у'], .cls false [.rng 'Н' 'Н', .rng 'н' 'н'], .cls false [.rng 'Д' 'Д', .rng 'д' 'д', .rng 'ᲁ' 'ᲁ'], .cls false [.rng 'У' 'У', .rng 'у' 'у']], [.lit ['i', 'n', ' '], .ref 1, .lit [' ', 's', 'e', 'c', 'o', 'n', 'd']]),
    (.seqs [.cls false [.rng 'П' 'П', .rng 'п' 'п'], .cls false [.rng 'Р' 'Р', .rng 'р' 'р'], .cls false [.rng 'А' 'А', .rng 'а' 'а'], .cls false [.rng 'З' 'З', .rng 'з' 'з'], .lit [' '], .grp 1 (.number), .lit [' '], .cls false [.rng 'С' 'С', .rng 'с' 'с', .rng 'ᲃ' 'ᲃ'], .cls false [.rng 'Е' 'Е', .rng 'е' 'е'], .cls false [.rng 'К' 'К', .rng 'к' 'к'], .cls false [.rng 'У' 'У', .rng 'у' 'у'], .cls false [.rng 'Н' 'Н', .rng 'н' 'н'], .cls false [.rng 'Д' 'Д', .rng 'д' 'д', .rng 'ᲁ' 'ᲁ'], .cls false [.rng 'Ы' 'Ы', .rng 'ы' 'ы']], [.lit ['i', 'n', ' '], .ref 1, .lit [' ', 's', 'e', 'c', 'o', 'n', 'd']]),
    (.seqs [.cls false [.rng 'П' 'П', .rng 'п' 'п'], .cls false [.rng 'Р' 'Р', .rng 'р' 'р'], .cls false [.rng 'А' 'А', .rng 'а' 'а'], .cls false [.rng 'З' 'З', .rng 'з' 'з'], .lit [' '], .grp 1 (.number), .lit [' '], .cls false [.rng 'Т' 'Т', .rng 'т' 'т', .rng 'ᲄ' 'ᲄ', .rng 'ᲅ' 'ᲅ'], .cls false [.rng 'Ы' 'Ы', .rng 'ы' 'ы'], .cls false [.rng 'Д' 'Д', .rng 'д' 'д', .rng 'ᲁ' 'ᲁ'], .cls false [.rng 'З' 'З', .rng 'з' 'з'], .cls false [.rng 'Е' 'Е', .rng 'е' 'е'], .cls false [.rng 'Н' 'Н', .rng 'н' 'н'], .cls false [.rng 'Ь' 'Ь', .rng 'ь' 'ь']], [.lit ['i', 'n', ' '], .ref 1, .lit [' ', 'w', 'e', 'e', 'k']]),
    (.seqs [.cls false [.rng 'П' 'П', .rng 'п' 'п'], .cls false [.rng 'Р' 'Р', .rng 'р' 'р'], .cls false [.rng 'А' 'А', .rng 'а' 'а'], .cls false [.rng 'З' 'З', .rng 'з' 'з'], .lit [' '], .grp 1 (.number), .lit [' '], .cls false [.rng 'Х' 'Х', .rng 'х' 'х'], .cls false [.rng 'В' 'В', .rng 'в' 'в', .rng 'ᲀ' 'ᲀ'], .cls false [.rng 'І' 'І', .rng 'і' 'і'], .cls false [.rng 'Л' 'Л', .rng 'л' 'л'], .cls false [.rng 'І' 'І', .rng 'і' 'і'], .cls false [.rng 'Н' 'Н', .rng 'н' 'н'], .cls false [.rng 'У' 'У', .rng 'у' 'у']], [.lit ['i', 'n', ' '], .ref 1, .lit [' ', 'm', 'i', 'n', 'u', 't', 'e']]),
    (.seqs [.cls false [.rng 'П' 'П', .rng 'п' 'п'], .cls false [.rng 'Р' 'Р', .rng 'р' 'р'], .cls false [.rng 'А' 'А', .rng 'а' 'а'], .cls false [.rng 'З' 'З', .rng 'з' 'з'], .lit [' '], .grp 1 (.number), .lit [' '], .cls false [.rng 'Х' 'Х', .rng 'х' 'х'], .cls false [.rng 'В' 'В', .rng 'в' 'в', .rng 'ᲀ' 'ᲀ'], .cls false [.rng 'І' 'І', .rng 'і' 'і'], .cls false [.rng 'Л' 'Л', .rng 'л' 'л'], .cls false [.rng 'І' 'І', .rng 'і' 'і'], .cls false [.rng 'Н' 'Н', .rng 'н' 'н'], .cls false [.rng 'Ы' 'Ы', .rng 'ы' 'ы']], [.lit ['i', 'n', ' '], .ref 1, .lit [' ', 'm', 'i', 'n', 'u', 't', 'e']]),
    (.seqs [.grp 1 (.number), .lit [' '], .cls false [.rng 'М' 'М', .rng 'м' 'м'], .cls false [.rng 'Е' 'Е', .rng 'е' 'е'], .cls false [.rng 'С' 'С', .rng 'с' 'с', .rng 'ᲃ' 'ᲃ'], .cls false [.rng 'Я' 'Я', .rng 'я' 'я'], .cls false [.rng 'Ц' 'Ц', .rng 'ц' 'ц'], .cls false [.rng 'А' 'А', .rng 'а' 'а'], .lit [' '], .cls false [.rng 'Т' 'Т', .rng 'т' 'т', .rng 'ᲄ' 'ᲄ', .rng 'ᲅ' 'ᲅ'], .cls false [.rng 'А' 'А', .rng 'а' 'а'], .cls false [.rng 'М' 'М', .rng 'м' 'м'], .cls false [.rng 'У' 'У', .rng 'у' 'у']], [.ref 1, .lit [' ', 'm', 'o', 'n', 't', 'h', ' ', 'a', 'g', 'o']]),
    (.seqs [.cls false [.rng 'П' 'П', .rng 'п' 'п'], .cls false [.rng 'Р' 'Р', .rng 'р' 'р'], .cls false [.rng 'А' 'А', .rng 'а' 'а'], .cls false [.rng 'З' 'З', .rng 'з' 'з'], .lit [' '], .grp 1 (.number), .lit [' '], .cls false [.rng 'М' 'М', .rng 'м' 'м'], .cls false [.rng 'Е' 'Е', .rng 'е' 'е'], .cls false [.rng 'С' 'С', .rng 'с' 'с', .rng 'ᲃ' 'ᲃ'], .cls false [.rng 'Я' 'Я', .rng 'я' 'я'], .cls false [.rng 'Ц' 'Ц', .rng 'ц' 'ц'], .cls false [.rng 'А' 'А', .rng 'а' 'а']], [.lit ['i', 'n', ' '], .ref 1, .lit [' ', 'm', 'o', 'n', 't', 'h']]),
    (.seqs [.grp 1 (.number), .lit [' '], .cls false [.rng 'Д' 'Д', .rng 'д' 'д', .rng 'ᲁ' 'ᲁ'], .cls false [.rng 'З' 'З', .rng 'з' 'з'], .cls false [.rng 'Е' 'Е', .rng 'е' 'е'], .cls false [.rng 'Н' 'Н', .rng 'н' 'н'], .cls false [.rng 'Ь' 'Ь', .rng 'ь' 'ь'], .lit [' '], .cls false [.rng 'Т' 'Т', .rng 'т' 'т', .rng 'ᲄ' 'ᲄ', .rng 'ᲅ' 'ᲅ'], .cls false [.rng 'А' 'А', .rng 'а' 'а'], .cls false [.rng 'М' 'М', .rng 'м' 'м'], .cls false [.rng 'У' 'У', .rng 'у' 'у']], [.ref 1, .lit [' ', 'd', 'a', 'y', ' ', 'a', 'g', 'o']]),
    (.seqs [.grp 1 (.number), .lit [' '], .cls false [.rng 'М' 'М', .rng 'м' 'м'], .cls false [.rng 'Е' 'Е', .rng 'е' 'е'], .cls false [.rng 'С' 'С', .rng 'с' 'с', .rng 'ᲃ' 'ᲃ'], .cls false [.rng 'Я' 'Я', .rng 'я' 'я'], .cls false [.rng 'Ц' 'Ц', .rng 'ц' 'ц'], .lit [' '], .cls false [.rng 'Т' 'Т', .rng 'т' 'т', .rng 'ᲄ' 'ᲄ', .rng 'ᲅ' 'ᲅ'], .cls false [.rng 'А' 'А', .rng 'а' 'а'], .cls false [.rng 'М' 'М', .rng 'м' 'м'], .cls false [.rng 'У' 'У', .rng 'у' 'у']], [.ref 1, .lit [' ', 'm', 'o', 'n', 't', 'h', ' ', 'a', 'g', 'o']]),
    (.seqs [.grp 1 (.number), .lit [' '], .cls false [.rng 'Т' 'Т', .rng 'т' 'т', .rng 'ᲄ' 'ᲄ', .rng 'ᲅ' 'ᲅ'], .cls false [.rng 'Ы' 'Ы', .rng 'ы' 'ы'], .cls false [.rng 'Д' 'Д', .rng 'д' 'д', .rng 'ᲁ' 'ᲁ'], .cls false [.rng 'Н' 'Н', .rng 'н' 'н'], .cls false [.rng 'Я' 'Я', .rng 'я' 'я'], .lit [' '], .cls false [.rng 'Т' 'Т', .rng 'т' 'т', .rng 'ᲄ' 'ᲄ', .rng 'ᲅ' 'ᲅ'], .cls false [.rng 'А' 'А', .rng 'а' 'а'], .cls false [.rng 'М' 'М', .rng 'м' 'м'], .cls false [.rng 'У' 'У', .rng 'у' 'у']], [.ref 1, .lit [' ', 'w', 'e', 'e', 'k', ' ', 'a', 'g', 'o']]),
    (.seqs [.cls false [.rng 'П' 'П', .rng 'п' 'п'], .cls false [.rng 'Р' 'Р', .rng 'р' 'р'], .cls false [.rng 'А' 'А', .rng 'а' 'а'], .cls false [.rng 'З' 'З', .rng 'з' 'з'], .lit [' '], .grp 1 (.number), .lit [' '], .cls false [.rng 'Д' 'Д', .rng 'д' 'д', .rng 'ᲁ' 'ᲁ'], .cls false [.rng 'З' 'З', .rng 'з' 'з'], .cls false [.rng 'Е' 'Е', .rng 'е' 'е'], .cls false [.rng 'Н' 'Н', .rng 'н' 'н'], .cls false [.rng 'Ь' 'Ь', .rng 'ь' 'ь']], [.lit ['i', 'n', ' '], .ref 1, .lit [' ', 'd', 'a', 'y']]),
    (.seqs [.cls false [.rng 'П' 'П', .rng 'п' 'п'], .cls false [.rng 'Р' 'Р', .rng 'р' 'р'], .cls false [.rng 'А' 'А', .rng 'а' 'а'], .cls false [.rng 'З' 'З', .rng 'з' 'з'], .lit [' '], .grp 1 (.number), .lit [' '], .cls false [.rng 'М' 'М', .rng 'м' 'м'], .cls false [.rng 'Е' 'Е', .rng 'е' 'е'], .cls false [.rng 'С' 'С', .rng 'с' 'с', .rng 'ᲃ' 'ᲃ'], .cls false [.rng 'Я' 'Я', .rng 'я' 'я'], .cls false [.rng 'Ц' 'Ц', .rng 'ц' 'ц']], [.lit ['i', 'n', ' '], .ref 1, .lit [' ', 'm', 'o', 'n', 't', 'h']]),
    (.seqs [.cls false [.rng 'П' 'П', .rng 'п' 'п'], .cls false [.rng 'Р' 'Р', .rng 'р' 'р'], .cls false [.rng 'А' 'А', .rng 'а' 'а'], .cls false [.rng 'З' 'З', .rng 'з' 'з'], .lit [' '], .grp 1 (.number), .lit [' '], .cls false [.rng 'Т' 'Т', .rng 'т' 'т', .rng 'ᲄ' 'ᲄ', .rng 'ᲅ' 'ᲅ'], .cls false [.rng 'Ы' 'Ы', .rng 'ы' 'ы'], .cls false [.rng 'Д' 'Д', .rng 'д' 'д', .rng 'ᲁ' 'ᲁ'], .cls false [.rng 'Н' 'Н', .rng 'н' 'н'], .cls false [.rng 'Я' 'Я', .rng 'я' 'я']], [.lit ['i', 'n', ' '], .ref 1, .lit [' ', 'w', 'e', 'e', 'k']]),
    (.seqs [.grp 1 (.number), .lit [' '], .cls false [.rng 'Г' 'Г', .rng 'г' 'г'], .cls false [.rng 'А' 'А', .rng 'а' 'а'], .cls false [.rng 'Д' 'Д', .rng 'д' 'д', .rng 'ᲁ' 'ᲁ'], .cls false [.rng 'З' 'З', .rng 'з' 'з'], .lit [' '], .cls false [.rng 'Т' 'Т', .rng 'т' 'т', .rng 'ᲄ' 'ᲄ', .rng 'ᲅ' 'ᲅ'], .cls false [.rng 'А' 'А', .rng 'а' 'а'], .cls false [.rng 'М' 'М', .rng 'м' 'м'], .cls false [.rng 'У' 'У', .rng 'у' 'у']], [.ref 1, .lit [' ', 'h', 'o', 'u', 'r', ' ', 'a', 'g', 'o']]),
    (.seqs [.grp 1 (.number), .lit [' '], .cls false [.rng 'Г' 'Г', .rng 'г' 'г'], .cls false [.rng 'О' 'О', .rng 'о' 'о', .rng 'ᲂ' 'ᲂ'], .cls false [.rng 'Д' 'Д', .rng 'д' 'д', .rng 'ᲁ' 'ᲁ'], .cls false [.rng 'А' 'А', .rng 'а' 'а'], .lit [' '], .cls false [.rng 'Т' 'Т', .rng 'т' 'т', .rng 'ᲄ' 'ᲄ', .rng 'ᲅ' 'ᲅ'], .cls false [.rng 'А' 'А', .rng 'а' 'а'], .cls false [.rng 'М' 'М', .rng 'м' 'м'], .cls false [.rng 'У' 'У', .rng 'у' 'у']], [.ref 1, .lit [' ', 'y', 'e', 'a', 'r', ' ', 'a', 'g', 'o']]),
    (.seqs [.cls false [.rng 'П' 'П', .rng 'п' 'п'], .cls false [.rng 'Р' 'Р', .rng 'р' 'р'], .cls false [.rng 'А' 'А', .rng 'а' 'а'], .cls false [.rng 'З' 'З', .rng 'з' 'з'], .lit [' '], .grp 1 (.number), .lit [' '], .cls false [.rng 'Г' 'Г', .rng 'г' 'г'], .cls false [.rng 'А' 'А', .rng 'а' 'а'], .cls false [.rng 'Д' 'Д', .rng 'д' 'д', .rng 'ᲁ' 'ᲁ'], .cls false [.rng 'З' 'З', .rng 'з' 'з']], [.lit ['i', 'n', ' '], .ref 1, .lit [' ', 'h', 'o', 'u', 'r']]),
    (.seqs [.cls false [.rng 'П' 'П', .rng 'п' 'п'], .cls false [.rng 'Р' 'Р', .rng 'р' 'р'], .cls false [.rng 'А' 'А', .rng 'а' 'а'], .cls false [.rng 'З' 'З', .rng 'з' 'з'], .lit [' '], .grp 1 (.number), .lit [' '], .cls false [.rng 'Г' 'Г', .rng 'г' 'г'], .cls false [.rng 'О' 'О', .rng 'о' 'о', .rng 'ᲂ' 'ᲂ'], .cls false [.rng 'Д' 'Д', .rng 'д' 'д', .rng 'ᲁ' 'ᲁ'], .cls false [.rng 'А' 'А', .rng 'а' 'а']], [.lit ['i', 'n', ' '], .ref 1, .lit [' ', 'y', 'e', 'a', 'r']]),
    (.seqs [.grp 1 (.number), .lit [' '], .cls false [.rng 'Г' 'Г', .rng 'г' 'г'], .cls false [.rng 'О' 'О', .rng 'о' 'о', .rng 'ᲂ' 'ᲂ'], .cls false [.rng 'Д' 'Д', .rng 'д' 'д', .rng 'ᲁ' 'ᲁ'], .lit [' '], .cls false [.rng 'Т' 'Т', .rng 'т' 'т', .rng 'ᲄ' 'ᲄ', .rng 'ᲅ' 'ᲅ'], .cls false [.rng 'А' 'А', .rng 'а' 'а'], .cls false [.rng 'М' 'М', .rng 'м' 'м'], .cls false [.rng 'У' 'У', .rng 'у' 'у']], [.ref 1, .lit [' ', 'y', 'e', 'a', 'r', ' ', 'a', 'g', 'o']]),
    (.seqs [.grp 1 (.number), .lit [' '], .cls false [.rng 'Д' 'Д', .rng 'д' 'д', .rng 'ᲁ' 'ᲁ'], .cls false [.rng 'Н' 'Н', .rng 'н' 'н'], .cls false [.rng 'Я' 'Я', .rng 'я' 'я'], .lit [' '], .cls false [.rng 'Т' 'Т', .rng 'т' 'т', .rng 'ᲄ' 'ᲄ', .rng 'ᲅ' 'ᲅ'], .cls false [.rng 'А' 'А', .rng 'а' 'а'], .cls false [.rng 'М' 'М', .rng 'м' 'м'], .cls false [.rng 'У' 'У', .rng 'у' 'у']], [.ref 1, .lit [' ', 'd', 'a', 'y', ' ', 'a', 'g', 'o']]),
    (.seqs [.grp 1 (.number), .lit [' '], .cls false [.rng 'М' 'М', .rng 'м' 'м'], .cls false [.rng 'Е' 'Е', .rng 'е' 'е'], .cls false [.rng 'С' 'С', .rng 'с' 'с', .rng 'ᲃ' 'ᲃ'], .lit [' '], .cls false [.rng 'Т' 'Т', .rng 'т' 'т', .rng 'ᲄ' 'ᲄ', .rng 'ᲅ' 'ᲅ'], .cls false [.rng 'А' 'А', .rng 'а' 'а'], .cls false [.rng 'М' 'М', .rng 'м' 'м'], .cls false [.rng 'У' 'У', .rng 'у' 'у']], [.ref 1, .lit [' ', 'm', 'o', 'n', 't', 'h', ' ', 'a', 'g', 'o']]),
    (.seqs [.grp 1 (.number), .lit [' '], .cls false [.rng 'Т' 'Т', .rng 'т' 'т', .rng 'ᲄ' 'ᲄ', .rng 'ᲅ' 'ᲅ'], .cls false [.rng 'Ы' 'Ы', .rng 'ы' 'ы'], .cls false [.rng 'Д' 'Д', .rng 'д' 'д', .rng 'ᲁ' 'ᲁ'], .lit [' '], .cls false [.rng 'Т' 'Т', .rng 'т' 'т', .rng 'ᲄ' 'ᲄ', .rng 'ᲅ' 'ᲅ'], .cls false [.rng 'А' 'А', .rng 'а' 'а'], .cls false [.rng 'М' 'М', .rng 'м' 'м'], .cls false [.rng 'У' 'У', .rng 'у' 'у']], [.ref 1, .lit [' ', 'w', 'e', 'e', 'k', ' ', 'a', 'g', 'o']]),
    (.seqs [.cls false [.rng 'П' 'П', .rng 'п' 'п'], .cls false [.rng 'Р' 'Р', .rng 'р' 'р'], .cls false [.rng 'А' 'А', .rng 'а' 'а'], .cls false [.rng 'З' 'З', .rng 'з' 'з'], .lit [' '], .grp 1 (.number), .lit [' '], .cls false [.rng 'Г' 'Г', .rng 'г' 'г'], .cls false [.rng 'О' 'О', .rng 'о' 'о', .rng 'ᲂ' 'ᲂ'], .cls false [.rng 'Д' 'Д', .rng 'д' 'д', .rng 'ᲁ' 'ᲁ']], [.lit ['i', 'n', ' '], .ref 1, .lit [' ', 'y', 'e', 'a', 'r']]),
    (.seqs [.cls false [.rng 'П' 'П', .rng 'п' 'п'], .cls false [.rng 'Р' 'Р', .rng 'р' 'р'], .cls false [.rng 'А' 'А', .rng 'а' 'а'], .cls false [.rng 'З' 'З', .rng 'з' 'з'], .lit [' '], .grp 1 (.number), .lit [' '], .cls false [.rng 'Д' 'Д', .rng 'д' 'д', .rng 'ᲁ' 'ᲁ'], .cls false [.rng 'Н' 'Н', .rng 'н' 'н'], .cls false [.rng 'Я' 'Я', .rng 'я' 'я']], [.lit ['i', 'n', ' '], .ref 1, .lit [' ', 'd', 'a', 'y']]),
    (.seqs [.cls false [.rng 'П' 'П', .rng 'п' 'п'], .cls false [.rng 'Р' 'Р', .rng 'р' 'р'], .cls false [.rng 'А' 'А', .rng 'а' 'а'], .cls false [.rng 'З' 'З', .rng 'з' 'з'], .lit [' '], .grp 1 (.number), .lit [' '], .cls false [.rng 'М' 'М', .rng 'м' 'м'], .cls false [.rng 'Е' 'Е', .rng 'е' 'е'], .cls false [.rng 'С' 'С', .rng 'с' 'с', .rng 'ᲃ' 'ᲃ']], [.lit ['i', 'n', ' '], .ref 1, .lit [' ', 'm', 'o', 'n', 't', 'h']]),
    (.seqs [.cls false [.rng 'П' 'П', .rng 'п' 'п'], .cls false [.rng 'Р' 'Р', .rng 'р' 'р'], .cls false [.rng 'А' 'А', .rng 'а' 'а'], .cls false [.rng 'З' 'З', .rng 'з' 'з'], .lit [' '], .grp 1 (.number), .lit [' '], .cls false [.rng 'Т' 'Т', .rng 'т' 'т', .rng 'ᲄ' 'ᲄ', .rng 'ᲅ' 'ᲅ'], .cls false [.rng 'Ы' 'Ы', .rng 'ы' 'ы'], .cls false [.rng 'Д' 'Д', .rng 'д' 'д', .rng 'ᲁ' 'ᲁ']], [.lit ['i', 'n', ' '], .ref 1, .lit [' ', 'w', 'e', 'e', 'k']]),
    (.seqs [.grp 1 (.number), .lit [' '], .cls false [.rng 'Х' 'Х', .rng 'х' 'х'], .cls false [.rng 'В' 'В', .rng 'в' 'в', .rng 'ᲀ' 'ᲀ'], .lit [' '], .cls false [.rng 'Т' 'Т', .rng 'т' 'т', .rng 'ᲄ' 'ᲄ', .rng 'ᲅ' 'ᲅ'], .cls false [.rng 'А' 'А', .rng 'а' 'а'], .cls false [.rng 'М' 'М', .rng 'м' 'м'], .cls false [.rng 'У' 'У', .rng 'у' 'у']], [.ref 1, .lit [' ', 'm', 'i', 'n', 'u', 't', 'e', ' ', 'a', 'g', 'o']]),
    (.seqs [.cls false [.rng 'П' 'П', .rng 'п' 'п'], .cls false [.rng 'Р' 'Р', .rng 'р' 'р'], .cls false [.rng 'А' 'А', .rng 'а' 'а'], .cls false [.rng 'З' 'З', .rng 'з' 'з'], .lit [' '], .grp 1 (.number), .lit [' '], .cls false [.rng 'Х' 'Х', .rng 'х' 'х'], .cls false [.rng 'В' 'В', .rng 'в' 'в', .rng 'ᲀ' 'ᲀ']], [.lit ['i', 'n', ' '], .ref 1, .lit [' ', 'm', 'i', 'n', 'u', 't', 'e']]),
    (.seqs [.grp 1 (.number), .lit [' '], .cls false [.rng 'Г' 'Г', .rng 'г' 'г'], .lit [' '], .cls false [.rng 'Т' 'Т', .rng 'т' 'т', .rng 'ᲄ' 'ᲄ', .rng 'ᲅ' 'ᲅ'], .cls false [.rng 'А' 'А', .rng 'а' 'а'], .cls false [.rng 'М' 'М', .rng 'м' 'м'], .cls false [.rng 'У' 'У', .rng 'у' 'у']], [.ref 1, .lit [' ', 'y', 'e', 'a', 'r', ' ', 'a', 'g', 'o']]),
    (.seqs [.grp 1 (.number), .lit [' '], .cls false [.rng 'Д' 'Д', .rng 'д' 'д', .rng 'ᲁ' 'ᲁ'], .lit [' '], .cls false [.rng 'Т' 'Т', .rng 'т' 'т', .rng 'ᲄ' 'ᲄ', .rng 'ᲅ' 'ᲅ'], .cls false [.rng 'А' 'А', .rng 'а' 'а'], .cls false [.rng 'М' 'М', .rng 'м' 'м'], .cls false [.rng 'У' 'У', .rng 'у' 'у']], [.ref 1, .lit [' ', 'd', 'a', 'y', ' ', 'a', 'g', 'o']]),
    (.seqs [.grp 1 (.number), .lit [' '], .cls false [.rng 'С' 'С', .rng 'с' 'с', .rng 'ᲃ' 'ᲃ'], .lit [' '], .cls false [.rng 'Т' 'Т', .rng 'т' 'т', .rng 'ᲄ' 'ᲄ', .rng 'ᲅ' 'ᲅ'], .cls false [.rng 'А' 'А', .rng 'а' 'а'], .cls false [.rng 'М' 'М', .rng 'м' 'м'], .cls false [.rng 'У' 'У', .rng 'у' 'у']], [.ref 1, .lit [' ', 's', 'e', 'c', 'o', 'n', 'd', ' ', 'a', 'g', 'o']]),
    (.seqs [.cls false [.rng 'П' 'П', .rng 'п' 'п'], .cls false [.rng 'Р' 'Р', .rng 'р' 'р'], .cls false [.rng 'А' 'А', .rng 'а' 'а'], .cls false [.rng 'З' 'З', .rng 'з' 'з'], .lit [' '], .grp 1 (.number), .lit [' '], .cls false [.rng 'Г' 'Г', .rng 'г' 'г']], [.lit ['i', 'n', ' '], .ref 1, .lit [' ', 'y', 'e', 'a', 'r']]),
    (.seqs [.cls false [.rng 'П' 'П', .rng 'п' 'п'], .cls false [.rng 'Р' 'Р', .rng 'р' 'р'], .cls false [.rng 'А' 'А', .rng 'а' 'а'], .cls false [.rng 'З' 'З', .rng 'з' 'з'], .lit [' '], .grp 1 (.number), .lit [' '], .cls false [.rng 'Д' 'Д', .rng 'д' 'д', .rng 'ᲁ' 'ᲁ']], [.lit ['i', 'n', ' '], .ref 1, .lit [' ', 'd', 'a', 'y']]),
    (.seqs [.cls false [.rng 'П' 'П', .rng 'п' 'п'], .cls false [.rng 'Р' 'Р', .rng 'р' 'р'], .cls false [.rng 'А' 'А', .rng 'а' 'а'], .cls false [.rng 'З' 'З', .rng 'з' 'з'], .lit [' '], .grp 1 (.number), .lit [' '], .cls false [.rng 'С' 'С', .rng 'с' 'с', .rng 'ᲃ' 'ᲃ']], [.lit ['i', 'n', ' '], .ref 1, .lit [' ', 's', 'e', 'c', 'o', 'n', 'd']])],
  rxCombined := some (.seqs [.grp 1 (.alts [.bos, .cls true [.letter, .mark, .digit], .lit ['_']]), .grp 2 (.alts [.seqs [.number, .lit [' '], .cls false [.rng 'Г' 'Г', .rng 'г' 'г'], .cls false [.rng 'А' 'А', .rng 'а' 'а'], .cls false [.rng 'Д' 'Д', .rng 'д' 'д', .rng 'ᲁ' 'ᲁ'], .cls false [.rng 'З' 'З', .rng 'з' 'з'], .cls false [.rng 'І' 'І', .rng 'і' 'і'], .cls false [.rng 'Н' 'Н', .rng 'н' 'н'], .cls false [.rng 'У' 'У', .rng 'у' 'у'], .lit [' '], .cls false [.rng 'Т' 'Т', .rng 'т' 'т', .rng 'ᲄ' 'ᲄ', .rng 'ᲅ' 'ᲅ'], .cls false [.rng 'А' 'А', .rng 'а' 'а'], .cls false [.rng 'М' 'М', .rng 'м' 'м'], .cls false [.rng 'У' 'У', .rng 'у' 'у']], .seqs [.number, .lit [' '], .cls false [.rng 'Г' 'Г', .rng 'г' 'г'], .cls false [.rng 'А' 'А', .rng 'а' 'а'], .cls false [.rng 'Д' 'Д', .rng 'д' 'д', .rng 'ᲁ' 'ᲁ'], .cls false [.rng 'З' 'З', .rng 'з' 'з'], .cls false [.rng 'І' 'І', .rng 'і' 'і'], .cls false [.rng 'Н' 'Н', .rng 'н' 'н'], .cls false [.rng 'Ы' 'Ы', .rng 'ы' 'ы'], .lit [' '], .cls false [.rng 'Т' 'Т', .rng 'т' 'т', .rng 'ᲄ' 'ᲄ', .rng 'ᲅ' 'ᲅ'], .cls false [.rng 'А' 'А', .rng 'а' 'а'], .cls false [.rng 'М' 'М', .rng 'м' 'м'], .cls false [.rng 'У' 'У', .rng 'у' 'у']], .seqs [.number, .lit [' '], .cls false [.rng 'С' 'С', .rng 'с' 'с', .rng 'ᲃ' 'ᲃ'], .cls false [.rng 'Е' 'Е', .rng 'е' 'е'], .cls false [.rng 'К' 'К', .rng 'к' 'к'], .cls false [.rng 'У' 'У', .rng 'у' 'у'], .cls false [.rng 'Н' 'Н', .rng 'н' 'н'], .cls false [.rng 'Д' 'Д', .rng 'д' 'д', .rng 'ᲁ' 'ᲁ'], .cls false [.rng 'У' 'У', .rng 'у' 'у'], .lit [' '], .cls false [.rng 'Т' 'Т', .rng 'т' 'т', .rng 'ᲄ' 'ᲄ', .rng 'ᲅ' 'ᲅ'], .cls false [.rng 'А' 'А', .rng 'а' 'а'], .cls false [.rng 'М' 'М', .rng 'м' 'м'], .cls false [.rng 'У' 'У', .rng 'у' 'у']], .seqs [.number, .lit [' '], .cls false [.rng 'С' 'С', .rng 'с' 'с', .rng 'ᲃ' 'ᲃ'], .cls false [.rng 'Е' 'Е', .rng 'е' 'е'], .cls false [.rng 'К' 'К', .rng 'к' 'к'], .cls false [.rng 'У' 'У', .rng 'у' 'у'], .cls false [.rng 'Н' 'Н', .rng 'н' 'н'], .cls false [.rng 'Д' 'Д', .rng 'д' 'д', .rng 'ᲁ' 'ᲁ'], .cls false [.rng 'Ы' 'Ы', .rng 'ы' 'ы'], .lit [' '], .cls false [.rng 'Т' 'Т', .rng 'т' 'т', .rng 'ᲄ' 'ᲄ', .rng 'ᲅ' 'ᲅ'], .cls false [.rng 'А' 'А', .rng 'а' 'а'], .cls false [.rng 'М' 'М', .rng 'м' 'м'], .cls false [.rng 'У' 'У', .rng 'у' 'у']], .seqs [.number, .lit [' '], .cls false [.rng 'Т' 'Т', .rng 'т' 'т', .rng 'ᲄ' 'ᲄ', .rng 'ᲅ' 'ᲅ'], .cls false [.rng 'Ы' 'Ы', .rng 'ы' 'ы'], .cls false [.rng 'Д' 'Д', .rng 'д' 'д', .rng 'ᲁ' 'ᲁ'], .cls false [.rng 'З' 'З', .rng 'з' 'з'], .cls false [.rng 'Е' 'Е', .rng 'е' 'е'], .cls false [.rng 'Н' 'Н', .rng 'н' 'н'], .cls false [.rng 'Ь' 'Ь', .rng 'ь' 'ь'], .lit [' '], .cls false [.rng 'Т' 'Т', .rng 'т' 'т', .rng 'ᲄ' 'ᲄ', .rng 'ᲅ' 'ᲅ'], .cls false [.rng 'А' 'А', .rng 'а' 'а'], .cls false [.rng 'М' 'М', .rng 'м' 'м'], .cls false [.rng 'У' 'У', .rng 'у' 'у']], .seqs [.number, .lit [' '], .cls false [.rng 'Х' 'Х', .rng 'х' 'х'], .cls false [.rng 'В' 'В', .rng 'в' 'в', .rng 'ᲀ' 'ᲀ'], .cls false [.rng 'І' 'І', .rng 'і' 'і'], .cls false [.rng 'Л' 'Л', .rng 'л' 'л'], .cls false [.rng 'І' 'І', .rng 'і' 'і'], .cls false [.rng 'Н' 'Н', .rng 'н' 'н'], .cls false [.rng 'У' 'У', .rng 'у' 'у'], .lit [' '], .cls false [.rng 'Т' 'Т', .rng 'т' 'т', .rng 'ᲄ' 'ᲄ', .rng 'ᲅ' 'ᲅ'], .cls false [.rng 'А' 'А', .rng 'а' 'а'], .cls false [.rng 'М' 'М', .rng 'м' 'м'], .cls false [.rng 'У' 'У', .rng 'у' 'у']], .seqs [.number, .lit [' '], .cls false [.rng 'Х' 'Х', .rng 'х' 'х'], .cls false [.rng 'В' 'В', .rng 'в' 'в', .rng 'ᲀ' 'ᲀ'], .cls false [.rng 'І' 'І', .rng 'і' 'і'], .cls false [.rng 'Л' 'Л', .rng 'л' 'л'], .cls false [.rng 'І' 'І', .rng 'і' 'і'], .cls false [.rng 'Н' 'Н', .rng 'н' 'н'], .cls false [.rng 'Ы' 'Ы', .rng 'ы' 'ы'], .lit [' '], .cls false [.rng 'Т' 'Т', .rng 'т' 'т', .rng 'ᲄ' 'ᲄ', .rng 'ᲅ' 'ᲅ'], .cls false [.rng 'А' 'А', .rng 'а' 'а'], .cls false [.rng 'М' 'М', .rng 'м' 'м'], .cls false [.rng 'У' 'У', .rng 'у' 'у']], .seqs [.cls false [.rng 'П' 'П', .rng 'п' 'п'], .cls false [.rng 'Р' 'Р', .rng 'р' 'р'], .cls false [.rng 'А' 'А', .rng 'а' 'а'], .cls false [.rng 'З' 'З', .rng 'з' 'з'], .lit [' '], .number, .lit [' '], .cls false [.rng 'Г' 'Г', .rng 'г' 'г'], .cls false [.rng 'А' 'А', .rng 'а' 'а'], .cls false [.rng 'Д' 'Д', .rng 'д' 'д', .rng 'ᲁ' 'ᲁ'], .cls false [.rng 'З' 'З', .rng 'з' 'з'], .cls false [.rng 'І' 'І', .rng 'і' 'і'], .cls false [.rng 'Н' 'Н', .rng 'н' 'н'], .cls false [.rng 'У' 'У', .rng 'у' 'у']], .seqs [.cls false [.rng 'П' 'П', .rng 'п' 'п'], .cls false [.rng 'Р' 'Р', .rng 'р' 'р'], .cls false [.rng 'А' 'А', .rng 'а' 'а'], .cls false [.rng 'З' 'З', .rng 'з' 'з'], .lit [' '], .number, .lit [' '], .cls false [.rng 'Г' 'Г', .rng 'г' 'г'], .cls false [.rng 'А' 'А', .rng 'а' 'а'], .cls false [.rng 'Д' 'Д', .rng 'д' 'д', .rng 'ᲁ' 'ᲁ'], .cls false [.rng 'З' 'З', .rng 'з' 'з'], .cls false [.rng 'І' 'І', .rng 'і' 'і'], .cls false [.rng 'Н' 'Н', .rng 'н' 'н'], .cls false [.rng 'Ы' 'Ы', .rng 'ы' 'ы']], .seqs [.cls false [.rng 'П' 'П', .rng 'п' 'п'], .cls false [.rng 'Р' 'Р', .rng 'р' 'р'], .cls false [.rng 'А' 'А', .rng 'а' 'а'], .cls false [.rng 'З' 'З', .rng 'з' 'з'], .lit [' '], .number, .lit [' '], .cls false [.rng 'С' 'С', .rng 'с' 'с', .rng 'ᲃ' 'ᲃ'], .cls false [.rng 'Е' 'Е', .rng 'е' 'е'], .cls false [.rng 'К' 'К', .rng 'к' 'к'], .cls false [.rng 'У' 'У', .rng 'у' 'у'], .cls false [.rng 'Н' 'Н', .rng 'н' 'н'], .cls false [.rng 'Д' 'Д', .rng 'д' 'д', .rng 'ᲁ' 'ᲁ'], .cls false [.rng 'У' 'У', .rng 'у' 'у']], .seqs [.cls false [.rng 'П' 'П', .rng 'п' 'п'], .cls false [.rng 'Р' 'Р', .rng 'р' 'р'], .cls false [.rng 'А' 'А', .rng 'а' 'а'], .cls false [.rng 'З' 'З', .rng 'з' 'з'], .lit [' '], .number, .lit [' '], .cls false [.rng 'С' 'С', .rng 'с' 'с', .rng 'ᲃ' 'ᲃ'], .cls false [.rng 'Е' 'Е', .rng 'е' 'е'], .cls false [.rng 'К' 'К', .rng 'к' 'к'], .cls false [.rng 'У' 'У', .rng 'у' 'у'], .cls false [.rng 'Н' 'Н', .rng 'н' 'н'], .cls false [.rng 'Д' 'Д', .rng 'д' 'д', .rng 'ᲁ' 'ᲁ'], .cls false [.rng 'Ы' 'Ы', .rng 'ы' 'ы']], .seqs [.cls false [.rng 'П' 'П', .rng 'п' 'п'], .cls false [.rng 'Р' 'Р', .rng 'р' 'р'], .cls false [.rng 'А' 'А', .rng 'а' 'а'], .cls false [.rng 'З' 'З', .rng 'з' 'з'], .lit [' '], .number, .lit [' '], .cls false [.rng 'Т' 'Т', .rng 'т' 'т', .rng 'ᲄ' 'ᲄ', .rng 'ᲅ' 'ᲅ'], .cls false [.rng 'Ы' 'Ы', .rng 'ы' 'ы'], .cls false [.rng 'Д' 'Д', .rng 'д' 'д', .rng 'ᲁ' 'ᲁ'], .cls false [.rng 'З' 'З', .rng 'з' 'з'], .cls false [.rng 'Е' 'Е', .rng 'е' 'е'], .cls false [.rng 'Н' 'Н', .rng 'н' 'н'], .cls false [.rng 'Ь' 'Ь', .rng 'ь' 'ь']], .seqs [.cls false [.rng 'П' 'П', .rng 'п' 'п'], .cls false [.rng 'Р' 'Р', .rng 'р' 'р'], .cls false [.rng 'А' 'А', .rng 'а' 'а'], .cls false [.rng 'З' 'З', .rng 'з' 'з'], .lit [' '], .number, .lit [' '], .cls false [.rng 'Х' 'Х', .rng 'х' 'х'], .cls false [.rng 'В' 'В', .rng 'в' 'в', .rng 'ᲀ' 'ᲀ'], .cls false [.rng 'І' 'І', .rng 'і' 'і'], .cls false [.rng 'Л' 'Л', .rng 'л' 'л'], .cls false [.rng 'І' 'І', .rng 'і' 'і'], .cls false [.rng 'Н' 'Н', .rng 'н' 'н'], .cls false [.rng 'У' 'У', .rng 'у' 'у']], .seqs [.cls false [.rng 'П' 'П', .rng 'п' 'п'], .cls false [.rng 'Р' 'Р', .rng 'р' 'р'], .cls false [.rng 'А' 'А', .rng 'а' 'а'], .cls false [.rng 'З' 'З', .rng 'з' 'з'], .lit [' '], .number, .lit [' '], .cls false [.rng 'Х' 'Х', .rng 'х' 'х'], .cls false [.rng 'В' 'В', .rng 'в' 'в', .rng 'ᲀ' 'ᲀ'], .cls false [.rng 'І' 'І', .rng 'і' 'і'], .cls false [.rng 'Л' 'Л', .rng 'л' 'л'], .cls false [.rng 'І' 'І', .rng 'і' 'і'], .cls false [.rng 'Н' 'Н', .rng 'н' 'н'], .cls false [.rng 'Ы' 'Ы', .rng 'ы' 'ы']], .seqs [.number, .lit [' '], .cls false [.rng 'М' 'М', .rng 'м' 'м'], .cls false [.rng 'Е' 'Е', .rng 'е' 'е'], .cls false [.rng 'С' 'С', .rng 'с' 'с', .rng 'ᲃ' 'ᲃ'], .cls false [.rng 'Я' 'Я', .rng 'я' 'я'], .cls false [.rng 'Ц' 'Ц', .rng 'ц' 'ц'], .cls false [.rng 'А' 'А', .rng 'а' 'а'], .lit [' '], .cls false [.rng 'Т' 'Т', .rng 'т' 'т', .rng 'ᲄ' 'ᲄ', .rng 'ᲅ' 'ᲅ'], .cls false [.rng 'А' 'А', .rng 'а' 'а'], .cls false [.rng 'М' 'М', .rng 'м' 'м'], .cls false [.rng 'У' 'У', .rng 'у' 'у']], .seqs [.cls false [.rng 'П' 'П', .rng 'п' 'п'], .cls false [.rng 'Р' 'Р', .rng 'р' 'р'], .cls false [.rng 'А' 'А', .rng 'а' 'а'], .cls false [.rng 'З' 'З', .rng 'з' 'з'], .lit [' '], .number, .lit [' '], .cls false [.rng 'М' 'М', .rng 'м' 'м'], .cls false [.rng 'Е' 'Е', .rng 'е' 'е'], .cls false [.rng 'С' 'С', .rng 'с' 'с', .rng 'ᲃ' 'ᲃ'], .cls false [.rng 'Я' 'Я', .rng 'я' 'я'], .cls false [.rng 'Ц' 'Ц', .rng 'ц' 'ц'], .cls false [.rng 'А' 'А', .rng 'а' 'а']], .seqs [.number, .lit [' '], .cls false [.rng 'Д' 'Д', .rng 'д' 'д', .rng 'ᲁ' 'ᲁ'], .cls false [.rng 'З' 'З', .rng 'з' 'з'], .cls false [.rng 'Е' 'Е', .rng 'е' 'е'], .cls false [.rng 'Н' 'Н', .rng 'н' 'н'], .cls false [.rng 'Ь' 'Ь', .rng 'ь' 'ь'], .lit [' '], .cls false [.rng 'Т' 'Т', .rng 'т' 'т', .rng 'ᲄ' 'ᲄ', .rng 'ᲅ' 'ᲅ'], .cls false [.rng 'А' 'А', .rng 'а' 'а'], .cls false [.rng 'М' 'М', .rng 'м' 'м'], .cls false [.rng 'У' 'У', .rng 'у' 'у']], .seqs [.number, .lit [' '], .cls false [.rng 'М' 'М', .rng 'м' 'м'], .cls false [.rng 'Е' 'Е', .rng 'е' 'е'], .cls false [.rng 'С' 'С', .rng 'с' 'с', .rng 'ᲃ' 'ᲃ'], .cls false [.rng 'Я' 'Я', .rng 'я' 'я'], .cls false [.rng 'Ц' 'Ц', .rng 'ц' 'ц'], .lit [' '], .cls false [.rng 'Т' 'Т', .rng 'т' 'т', .rng 'ᲄ' 'ᲄ', .rng 'ᲅ' 'ᲅ'], .cls false [.rng 'А' 'А', .rng 'а' 'а'], .cls false [.rng 'М' 'М', .rng 'м' 'м'], .cls false [.rng 'У' 'У', .rng 'у' 'у']], .seqs [.number, .lit [' '], .cls false [.rng 'Т' 'Т', .rng 'т' 'т', .rng 'ᲄ' 'ᲄ', .rng 'ᲅ' 'ᲅ'], .cls false [.rng 'Ы' 'Ы', .rng 'ы' 'ы'], .cls false [.rng 'Д' 'Д', .rng 'д' 'д', .rng 'ᲁ' 'ᲁ'], .cls false [.rng 'Н' 'Н', .rng 'н' 'н'], .cls false [.rng 'Я' 'Я', .rng 'я' 'я'], .lit [' '], .cls false [.rng 'Т' 'Т', .rng 'т' 'т', .rng 'ᲄ' 'ᲄ', .rng 'ᲅ' 'ᲅ'], .cls false [.rng 'А' 'А', .rng 'а' 'а'], .cls false [.rng 'М' 'М', .rng 'м' 'м'], .cls false [.rng 'У' 'У', .rng 'у' 'у']], .seqs [.cls false [.rng 'П' 'П', .rng 'п' 'п'], .cls false [.rng 'Р' 'Р', .rng 'р' 'р'], .cls false [.rng 'А' 'А', .rng 'а' 'а'], .cls false [.rng 'З' 'З', .rng 'з' 'з'], .lit [' '], .number, .lit [' '], .cls false [.rng 'Д' 'Д', .rng 'д' 'д', .rng 'ᲁ' 'ᲁ'], .cls false [.rng 'З' 'З', .rng 'з' 'з'], .cls false [.rng 'Е' 'Е', .rng 'е' 'е'], .cls false [.rng 'Н' 'Н', .rng 'н' 'н'], .cls false [.rng 'Ь' 'Ь', .rng 'ь' 'ь']], .seqs [.cls false [.rng 'П' 'П', .rng 'п' 'п'], .cls false [.rng 'Р' 'Р', .rng 'р' 'р'], .cls false [.rng 'А' 'А', .rng 'а' 'а'], .cls false [.rng 'З' 'З', .rng 'з' 'з'], .lit [' '], .number, .lit [' '], .cls false [.rng 'М' 'М', .rng 'м' 'м'], .cls false [.rng 'Е' 'Е', .rng 'е' 'е'], .cls false [.rng 'С' 'С', .rng 'с' 'с', .rng 'ᲃ' 'ᲃ'], .cls false [.rng 'Я' 'Я', .rng 'я' 'я'], .cls false [.rng 'Ц' 'Ц', .rng 'ц' 'ц']], .seqs [.cls false [.rng 'П' 'П', .rng 'п' 'п'], .cls false [.rng 'Р' 'Р', .rng 'р' 'р'], .cls false [.rng 'А' 'А', .rng 'а' 'а'], .cls false [.rng 'З' 'З', .rng 'з' 'з'], .lit [' '], .number, .lit [' '], .cls false [.rng 'Т' 'Т', .rng 'т' 'т', .rng 'ᲄ' 'ᲄ', .rng 'ᲅ' 'ᲅ'], .cls false [.rng 'Ы' 'Ы', .rng 'ы' 'ы'], .cls false [.rng 'Д' 'Д', .rng 'д' 'д', .rng 'ᲁ' 'ᲁ'], .cls false [.rng 'Н' 'Н', .rng 'н' 'н'], .cls false [.rng 'Я' 'Я', .rng 'я' 'я']], .seqs [.number, .lit [' '], .cls false [.rng 'Г' 'Г', .rng 'г' 'г'], .cls false [.rng 'А' 'А', .rng 'а' 'а'], .cls false [.rng 'Д' 'Д', .rng 'д' 'д', .rng 'ᲁ' 'ᲁ'], .cls false [.rng 'З' 'З', .rng 'з' 'з'], .lit [' '], .cls false [.rng 'Т' 'Т', .rng 'т' 'т', .rng 'ᲄ' 'ᲄ', .rng 'ᲅ' 'ᲅ'], .cls false [.rng 'А' 'А', .rng 'а' 'а'], .cls false [.rng 'М' 'М', .rng 'м' 'м'], .cls false [.rng 'У' 'У', .rng 'у' 'у']], .seqs [.number, .lit [' '], .cls false [.rng 'Г' 'Г', .rng 'г' 'г'], .cls false [.rng 'О' 'О', .rng 'о' 'о', .rng 'ᲂ' 'ᲂ'], .cls false [.rng 'Д' 'Д', .rng 'д' 'д', .rng 'ᲁ' 'ᲁ'], .cls false [.rng 'А' 'А', .rng 'а' 'а'], .lit [' '], .cls false [.rng 'Т' 'Т', .rng 'т' 'т', .rng 'ᲄ' 'ᲄ', .rng 'ᲅ' 'ᲅ'], .cls false [.rng 'А' 'А', .rng 'а' 'а'], .cls false [.rng 'М' 'М', .rng 'м' 'м'], .cls false [.rng 'У' 'У', .rng 'у' 'у']], .seqs [.cls false [.rng 'П' 'П', .rng 'п' 'п'], .cls false [.rng 'Р' 'Р', .rng 'р' 'р'], .cls false [.rng 'А' 'А', .rng 'а' 'а'], .cls false [.rng 'З' 'З', .rng 'з' 'з'], .lit [' '], .number, .lit [' '], .cls false [.rng 'Г' 'Г', .rng 'г' 'г'], .cls false [.rng 'А' 'А', .rng 'а' 'а'], .cls false [.rng 'Д' 'Д', .rng 'д' 'д', .rng 'ᲁ' 'ᲁ'], .cls false [.rng 'З' 'З', .rng 'з' 'з']], .seqs [.cls false [.rng 'П' 'П', .rng 'п' 'п'], .cls false [.rng 'Р' 'Р', .rng 'р' 'р'], .cls false [.rng 'А' 'А', .rng 'а' 'а'], .cls false [.rng 'З' 'З', .rng 'з' 'з'], .lit [' '], .number, .lit [' '], .cls false [.rng 'Г' 'Г', .rng 'г' 'г'], .cls false [.rng 'О' 'О', .rng 'о' 'о', .rng 'ᲂ' 'ᲂ'], .cls false [.rng 'Д' 'Д', .rng 'д' 'д', .rng 'ᲁ' 'ᲁ'], .cls false [.rng 'А' 'А', .rng 'а' 'а']], .seqs [.number, .lit [' '], .cls false [.rng 'Г' 'Г', .rng 'г' 'г'], .cls false [.rng 'О' 'О', .rng 'о' 'о', .rng 'ᲂ' 'ᲂ'], .cls false [.rng 'Д' 'Д', .rng 'д' 'д', .rng 'ᲁ' 'ᲁ'], .lit [' '], .cls false [.rng 'Т' 'Т', .rng 'т' 'т', .rng 'ᲄ' 'ᲄ', .rng 'ᲅ' 'ᲅ'], .cls false [.rng 'А' 'А', .rng 'а' 'а'], .cls false [.rng 'М' 'М', .rng 'м' 'м'], .cls false [.rng 'У' 'У', .rng 'у' 'у']], .seqs [.number, .lit [' '], .cls false [.rng 'Д' 'Д', .rng 'д' 'д', .rng 'ᲁ' 'ᲁ'], .cls false [.rng 'Н' 'Н', .rng 'н' 'н'], .cls false [.rng 'Я' 'Я', .rng 'я' 'я'], .lit [' '], .cls false [.rng 'Т' 'Т', .rng 'т' 'т', .rng 'ᲄ' 'ᲄ', .rng 'ᲅ' 'ᲅ'], .cls false [.rng 'А' 'А', .rng 'а' 'а'], .cls false [.rng 'М' 'М', .rng 'м' 'м'], .cls false [.rng 'У' 'У', .rng 'у' 'у']], .seqs [.number, .lit [' '], .cls false [.rng 'М' 'М', .rng 'м' 'м'], .cls false [.rng 'Е' 'Е', .rng 'е' 'е'], .cls false [.rng 'С' 'С', .rng 'с' 'с', .rng 'ᲃ' 'ᲃ'], .lit [' '], .cls false [.rng 'Т' 'Т', .rng 'т' 'т', .rng 'ᲄ' 'ᲄ', .rng 'ᲅ' 'ᲅ'], .cls false [.rng 'А' 'А', .rng 'а' 'а'], .cls false [.rng 'М' 'М', .rng 'м' 'м'], .cls false [.rng 'У' 'У', .rng 'у' 'у']], .seqs [.number, .lit [' '], .cls false [.rng 'Т' 'Т', .rng 'т' 'т', .rng 'ᲄ' 'ᲄ', .rng 'ᲅ' 'ᲅ'], .cls false [.rng 'Ы' 'Ы', .rng 'ы' 'ы'], .cls false [.rng 'Д' 'Д', .rng 'д' 'д', .rng 'ᲁ' 'ᲁ'], .lit [' '], .cls false [.rng 'Т' 'Т', .rng 'т' 'т', .rng 'ᲄ' 'ᲄ', .rng 'ᲅ' 'ᲅ'], .cls false [.rng 'А' 'А', .rng 'а' 'а'], .cls false [.rng 'М' 'М', .rng 'м' 'м'], .cls false [.rng 'У' 'У', .rng 'у' 'у']], .seqs [.cls false [.rng 'П' 'П', .rng 'п' 'п'], .cls false [.rng 'Р' 'Р', .rng 'р' 'р'], .cls false [.rng 'А' 'А', .rng 'а' 'а'], .cls false [.rng 'З' 'З', .rng 'з' 'з'], .lit [' '], .number, .lit [' '], .cls false [.rng 'Г' 'Г', .rng 'г' 'г'], .cls false [.rng 'О' 'О', .rng 'о' 'о', .rng 'ᲂ' 'ᲂ'], .cls false [.rng 'Д' 'Д', .rng 'д' 'д', .rng 'ᲁ' 'ᲁ']], .seqs [.cls false [.rng 'П' 'П', .rng 'п' 'п'], .cls false [.rng 'Р' 'Р', .rng 'р' 'р'], .cls false [.rng 'А' 'А', .rng 'а' 'а'], .cls false [.rng 'З' 'З', .rng 'з' 'з'], .lit [' '], .number, .lit [' '], .cls false [.rng 'Д' 'Д', .rng 'д' 'д', .rng 'ᲁ' 'ᲁ'], .cls false [.rng 'Н' 'Н', .rng 'н' 'н'], .cls false [.rng 'Я' 'Я', .rng 'я' 'я']], .seqs [.cls false [.rng 'П' 'П', .rng 'п' 'п'], .cls false [.rng 'Р' 'Р', .rng 'р' 'р'], .cls false [.rng 'А' 'А', .rng 'а' 'а'], .cls false [.rng 'З' 'З', .rng 'з' 'з'], .lit [' '], .number, .lit [' '], .cls false [.rng 'М' 'М', .rng 'м' 'м'], .cls false [.rng 'Е' 'Е', .rng 'е' 'е'], .cls false [.rng 'С' 'С', .rng 'с' 'с', .rng 'ᲃ' 'ᲃ']], .seqs [.cls false [.rng 'П' 'П', .rng 'п' 'п'], .cls false [.rng 'Р' 'Р', .rng 'р' 'р'], .cls false [.rng 'А' 'А', .rng 'а' 'а'], .cls false [.rng 'З' 'З', .rng 'з' 'з'], .lit [' '], .number, .lit [' '], .cls false [.rng 'Т' 'Т', .rng 'т' 'т', .rng 'ᲄ' 'ᲄ', .rng 'ᲅ' 'ᲅ'], .cls false [.rng 'Ы' 'Ы', .rng 'ы' 'ы'], .cls false [.rng 'Д' 'Д', .rng 'д' 'д', .rng 'ᲁ' 'ᲁ']], .seqs [.number, .lit [' '], .cls false [.rng 'Х' 'Х', .rng 'х' 'х'], .cls false [.rng 'В' 'В', .rng 'в' 'в', .rng 'ᲀ' 'ᲀ'], .lit [' '], .cls false [.rng 'Т' 'Т', .rng 'т' 'т', .rng 'ᲄ' 'ᲄ', .rng 'ᲅ' 'ᲅ'], .cls false [.rng 'А' 'А', .rng 'а' 'а'], .cls false [.rng 'М' 'М', .rng 'м' 'м'], .cls false [.rng 'У' 'У', .rng 'у' 'у']], .seqs [.cls false [.rng 'П' 'П', .rng 'п' 'п'], .cls false [.rng 'Р' 'Р', .rng 'р' 'р'], .cls false [.rng 'А' 'А', .rng 'а' 'а'], .cls false [.rng 'З' 'З', .rng 'з' 'з'], .lit [' '], .number, .lit [' '], .cls false [.rng 'Х' 'Х', .rng 'х' 'х'], .cls false [.rng 'В' 'В', .rng 'в' 'в', .rng 'ᲀ' 'ᲀ']], .seqs [.number, .lit [' '], .cls false [.rng 'Г' 'Г', .rng 'г' 'г'], .lit [' '], .cls false [.rng 'Т' 'Т', .rng 'т' 'т', .rng 'ᲄ' 'ᲄ', .rng 'ᲅ' 'ᲅ'], .cls false [.rng 'А' 'А', .rng 'а' 'а'], .cls false [.rng 'М' 'М', .rng 'м' 'м'], .cls false [.rng 'У' 'У', .rng 'у' 'у']], .seqs [.number, .lit [' '], .cls false [.rng 'Д' 'Д', .rng 'д' 'д', .rng 'ᲁ' 'ᲁ'], .lit [' '], .cls false [.rng 'Т' 'Т', .rng 'т' 'т', .rng 'ᲄ' 'ᲄ', .rng 'ᲅ' 'ᲅ'], .cls false [.rng 'А' 'А', .rng 'а' 'а'], .cls false [.rng 'М' 'М', .rng 'м' 'м'], .cls false [.rng 'У' 'У', .rng 'у' 'у']], .seqs [.number, .lit [' '], .cls false [.rng 'С' 'С', .rng 'с' 'с', .rng 'ᲃ' 'ᲃ'], .lit [' '], .cls false [.rng 'Т' 'Т', .rng 'т' 'т', .rng 'ᲄ' 'ᲄ', .rng 'ᲅ' 'ᲅ'], .cls false [.rng 'А' 'А', .rng 'а' 'а'], .cls false [.rng 'М' 'М', .rng 'м' 'м'], .cls false [.rng 'У' 'У', .rng 'у' 'у']], .seqs [.cls false [.rng 'П' 'П', .rng 'п' 'п'], .cls false [.rng 'Р' 'Р', .rng 'р' 'р'], .cls false [.rng 'А' 'А', .rng 'а' 'а'], .cls false [.rng 'З' 'З', .rng 'з' 'з'], .lit [' '], .number, .lit [' '], .cls false [.rng 'Г' 'Г', .rng 'г' 'г']], .seqs [.cls false [.rng 'П' 'П', .rng 'п' 'п'], .cls false [.rng 'Р' 'Р', .rng 'р' 'р'], .cls false [.rng 'А' 'А', .rng 'а' 'а'], .cls false [.rng 'З' 'З', .rng 'з' 'з'], .lit [' '], .number, .lit [' '], .cls false [.rng 'Д' 'Д', .rng 'д' 'д', .rng 'ᲁ' 'ᲁ']], .seqs [.cls false [.rng 'П' 'П', .rng 'п' 'п'], .cls false [.rng 'Р' 'Р', .rng 'р' 'р'], .cls false [.rng 'А' 'А', .rng 'а' 'а'], .cls false [.rng 'З' 'З', .rng 'з' 'з'], .lit [' '], .number, .lit [' '], .cls false [.rng 'С' 'С', .rng 'с' 'с', .rng 'ᲃ' 'ᲃ']]]), .grp 3 (.alts [.eos, .cls true [.letter, .mark, .digit], .lit ['_']])], 3),
  rxExact := some (.seqs [.bos, .grp 1 (.alts [.seqs [.number, .lit [' '], .cls false [.rng 'Г' 'Г', .rng 'г' 'г'], .cls false [.rng 'А' 'А', .rng 'а' 'а'], .cls false [.rng 'Д' 'Д', .rng 'д' 'д', .rng 'ᲁ' 'ᲁ'], .cls false [.rng 'З' 'З', .rng 'з' 'з'], .cls false [.rng 'І' 'І', .rng 'і' 'і'], .cls false [.rng 'Н' 'Н', .rng 'н' 'н'], .cls false [.rng 'У' 'У', .rng 'у' 'у'], .lit [' '], .cls false [.rng 'Т' 'Т', .rng 'т' 'т', .rng 'ᲄ' 'ᲄ', .rng 'ᲅ' 'ᲅ'], .cls false [.rng 'А' 'А', .rng 'а' 'а'], .cls false [.rng 'М' 'М', .rng 'м' 'м'], .cls false [.rng 'У' 'У', .rng 'у' 'у']], .seqs [.number, .lit [' '], .cls false [.rng 'Г' 'Г', .rng 'г' 'г'], .cls false [.rng 'А' 'А', .rng 'а' 'а'], .cls false [.rng 'Д' 'Д', .rng 'д' 'д', .rng 'ᲁ' 'ᲁ'], .cls false [.rng 'З' 'З', .rng 'з' 'з'], .cls false [.rng 'І' 'І', .rng 'і' 'і'], .cls false [.rng 'Н' 'Н', .rng 'н' 'н'], .cls false [.rng 'Ы' 'Ы', .rng 'ы' 'ы'], .lit [' '], .cls false [.rng 'Т' 'Т', .rng 'т' 'т', .rng 'ᲄ' 'ᲄ', .rng 'ᲅ' 'ᲅ'], .cls false [.rng 'А' 'А', .rng 'а' 'а'], .cls false [.rng 'М' 'М', .rng 'м' 'м'], .cls false [.rng 'У' 'У', .rng 'у' 'у']], .seqs [.number, .lit [' '], .cls false [.rng 'С' 'С', .rng 'с' 'с', .rng 'ᲃ' 'ᲃ'], .cls false [.rng 'Е' 'Е', .rng 'е' 'е'], .cls false [.rng 'К' 'К', .rng 'к' 'к'], .cls false [.rng 'У' 'У', .rng 'у' 'у'], .cls false [.rng 'Н' 'Н', .rng 'н' 'н'], .cls false [.rng 'Д' 'Д', .rng 'д' 'д', .rng 'ᲁ' 'ᲁ'], .cls false [.rng 'У' 'У', .rng 'у' 'у'], .lit [' '], .cls false [.rng 'Т' 'Т', .rng 'т' 'т', .rng 'ᲄ' 'ᲄ', .rng 'ᲅ' 'ᲅ'], .cls false [.rng 'А' 'А', .rng 'а' 'а'], .cls false [.rng 'М' 'М', .rng 'м' 'м'], .cls false [.rng 'У' 'У', .rng 'у' 'у']], .seqs [.number, .lit [' '], .cls false [.rng 'С' 'С', .rng 'с' 'с', .rng 'ᲃ' 'ᲃ'], .cls false [.rng 'Е' 'Е', .rng 'е' 'е'], .cls false [.rng 'К' 'К', .rng 'к' 'к'], .cls false [.rng 'У' 'У', .rng 'у' 'у'], .cls false [.rng 'Н' 'Н', .rng 'н' 'н'], .cls false [.rng 'Д' 'Д', .rng 'д' 'д', .rng 'ᲁ' 'ᲁ'], .cls false [.rng 'Ы' 'Ы', .rng 'ы' 'ы'], .lit [' '], .cls false [.rng 'Т' 'Т', .rng 'т' 'т', .rng 'ᲄ' 'ᲄ', .rng 'ᲅ' 'ᲅ'], .cls false [.rng 'А' 'А', .rng 'а' 'а'], .cls false [.rng 'М' 'М', .rng 'м' 'м'], .cls false [.rng 'У' 'У', .rng 'у' 'у']], .seqs [.number, .lit [' '], .cls false [.rng 'Т' 'Т', .rng 'т' 'т', .rng 'ᲄ' 'ᲄ', .rng 'ᲅ' 'ᲅ'], .cls false [.rng 'Ы' 'Ы', .rng 'ы' 'ы'], .cls false [.rng 'Д' 'Д', .rng 'д' 'д', .rng 'ᲁ' 'ᲁ'], .cls false [.rng 'З' 'З', .rng 'з' 'з'], .cls false [.rng 'Е' 'Е', .rng 'е' 'е'], .cls false [.rng 'Н' 'Н', .rng 'н' 'н'], .cls false [.rng 'Ь' 'Ь', .rng 'ь' 'ь'], .lit [' '], .cls false [.rng 'Т' 'Т', .rng 'т' 'т', .rng 'ᲄ' 'ᲄ', .rng 'ᲅ' 'ᲅ'], .cls false [.rng 'А' 'А', .rng 'а' 'а'], .cls false [.rng 'М' 'М', .rng 'м' 'м'], .cls false [.rng 'У' 'У', .rng 'у' 'у']], .seqs [.number, .lit [' '], .cls false [.rng 'Х' 'Х', .rng 'х' 'х'], .cls false [.rng 'В' 'В', .rng 'в' 'в', .rng 'ᲀ' 'ᲀ'], .cls false [.rng 'І' 'І', .rng 'і' 'і'], .cls false [.rng 'Л' 'Л', .rng 'л' 'л'], .cls false [.rng 'І' 'І', .rng 'і' 'і'], .cls false [.rng 'Н' 'Н', .rng 'н' 'н'], .cls false [.rng 'У' 'У', .rng 'у' 'у'], .lit [' '], .cls false [.rng 'Т' 'Т', .rng 'т' 'т', .rng 'ᲄ' 'ᲄ', .rng 'ᲅ' 'ᲅ'], .cls false [.rng 'А' 'А', .rng 'а' 'а'], .cls false [.rng 'М' 'М', .rng 'м' 'м'], .cls false [.rng 'У' 'У', .rng 'у' 'у']], .seqs [.number, .lit [' '], .cls false [.rng 'Х' 'Х', .rng 'х' 'х'], .cls false [.rng 'В' 'В', .rng 'в' 'в', .rng 'ᲀ' 'ᲀ'], .cls false [.rng 'І' 'І', .rng 'і' 'і'], .cls false [.rng 'Л' 'Л', .rng 'л' 'л'], .cls false [.rng 'І' 'І', .rng 'і' 'і'], .cls false [.rng 'Н' 'Н', .rng 'н' 'н'], .cls false [.rng 'Ы' 'Ы', .rng 'ы' 'ы'], .lit [' '], .cls false [.rng 'Т' 'Т', .rng 'т' 'т', .rng 'ᲄ' 'ᲄ', .rng 'ᲅ' 'ᲅ'], .cls false [.rng 'А' 'А', .rng 'а' 'а'], .cls false [.rng 'М' 'М', .rng 'м' 'м'], .cls false [.rng 'У' 'У', .rng 'у' 'у']], .seqs [.cls false [.rng 'П' 'П', .rng 'п' 'п'], .cls false [.rng 'Р' 'Р', .rng 'р' 'р'], .cls false [.rng 'А' 'А', .rng 'а' 'а'], .cls false [.rng 'З' 'З', .rng 'з' 'з'], .lit [' '], .number, .lit [' '], .cls false [.rng 'Г' 'Г', .rng 'г' 'г'], .cls false [.rng 'А' 'А', .rng 'а' 'а'], .cls false [.rng 'Д' 'Д', .rng 'д' 'д', .rng 'ᲁ' 'ᲁ'], .cls false [.rng 'З' 'З', .rng 'з' 'з'], .cls false [.rng 'І' 'І', .rng 'і' 'і'], .cls false [.rng 'Н' 'Н', .rng 'н' 'н'], .cls false [.rng 'У' 'У', .rng 'у' 'у']], .seqs [.cls false [.rng 'П' 'П', .rng 'п' 'п'], .cls false [.rng 'Р' 'Р', .rng 'р' 'р'], .cls false [.rng 'А' 'А', .rng 'а' 'а'], .cls false [.rng 'З' 'З', .rng 'з' 'з'], .lit [' '], .number, .lit [' '], .cls false [.rng 'Г' 'Г', .rng 'г' 'г'], .cls false [.rng 'А' 'А', .rng 'а' 'а'], .cls false [.rng 'Д' 'Д', .rng 'д' 'д', .rng 'ᲁ' 'ᲁ'], .cls false [.rng 'З' 'З', .rng 'з' 'з'], .cls false [.rng 'І' 'І', .rng 'і' 'і'], .cls false [.rng 'Н' 'Н', .rng 'н' 'н'], .cls false [.rng 'Ы' 'Ы', .rng 'ы' 'ы']], .seqs [.cls false [.rng 'П' 'П', .rng 'п' 'п'], .cls false [.rng 'Р' 'Р', .rng 'р' 'р'], .cls false [.rng 'А' 'А', .rng 'а' 'а'], .cls false [.rng 'З' 'З', .rng 'з' 'з'], .lit [' '], .number, .lit [' '], .cls false [.rng 'С' 'С', .rng 'с' 'с', .rng 'ᲃ' 'ᲃ'], .cls false [.rng 'Е' 'Е', .rng 'е' 'е'], .cls false [.rng 'К' 'К', .rng 'к' 'к'], .cls false [.rng 'У' 'У', .rng 'у' 'у'], .cls false [.rng 'Н' 'Н', .rng 'н' 'н'], .cls false [.rng 'Д' 'Д', .rng 'д' 'д', .rng 'ᲁ' 'ᲁ'], .cls false [.rng 'У' 'У', .rng 'у' 'у']], .seqs [.cls false [.rng 'П' 'П', .rng 'п' 'п'], .cls false [.rng 'Р' 'Р', .rng 'р' 'р'], .cls false [.rng 'А' 'А', .rng 'а' 'а'], .cls false [.rng 'З' 'З', .rng 'з' 'з'], .lit [' '], .number, .lit [' '], .cls false [.rng 'С' 'С', .rng 'с' 'с', .rng 'ᲃ' 'ᲃ'], .cls false [.rng 'Е' 'Е', .rng 'е' 'е'], .cls false [.rng 'К' 'К', .rng 'к' 'к'], .cls false [.rng 'У' 'У', .rng 'у' 'у'], .cls false [.rng 'Н' 'Н', .rng 'н' 'н'], .cls false [.rng 'Д' 'Д', .rng 'д' 'д', .rng 'ᲁ' 'ᲁ'], .cls false [.rng 'Ы' 'Ы', .rng 'ы' 'ы']], .seqs [.cls false [.rng 'П' 'П', .rng 'п' 'п'], .cls false [.rng 'Р' 'Р', .rng 'р' 'р'], .cls false [.rng 'А' 'А', .rng 'а' 'а'], .cls false [.rng 'З' 'З', .rng 'з' 'з'], .lit [' '], .number, .lit [' '], .cls false [.rng 'Т' 'Т', .rng 'т' 'т', .rng 'ᲄ' 'ᲄ', .rng 'ᲅ' 'ᲅ'], .cls false [.rng 'Ы' 'Ы', .rng 'ы' 'ы'], .cls false [.rng 'Д' 'Д', .rng 'д' 'д', .rng 'ᲁ' 'ᲁ'], .cls false [.rng 'З' 'З', .rng 'з' 'з'], .cls false [.rng 'Е' 'Е', .rng 'е' 'е'], .cls false [.rng 'Н' 'Н', .rng 'н' 'н'], .cls false [.rng 'Ь' 'Ь', .rng 'ь' 'ь']], .seqs [.cls false [.rng 'П' 'П', .rng 'п' 'п'], .cls false [.rng 'Р' 'Р', .rng 'р' 'р'], .cls false [.rng 'А' 'А', .rng 'а' 'а'], .cls false [.rng 'З' 'З', .rng 'з' 'з'], .lit [' '], .number, .lit [' '], .cls false [.rng 'Х' 'Х', .rng 'х' 'х'], .cls false [.rng 'В' 'В', .rng 'в' 'в', .rng 'ᲀ' 'ᲀ'], .cls false [.rng 'І' 'І', .rng 'і' 'і'], .cls false [.rng 'Л' 'Л', .rng 'л' 'л'], .cls false [.rng 'І' 'І', .rng 'і' 'і'], .cls false [.rng 'Н' 'Н', .rng 'н' 'н'], .cls false [.rng 'У' 'У', .rng 'у' 'у']], .seqs [.cls false [.rng 'П' 'П', .rng 'п' 'п'], .cls false [.rng 'Р' 'Р', .rng 'р' 'р'], .cls false [.rng 'А' 'А', .rng 'а' 'а'], .cls false [.rng 'З' 'З', .rng 'з' 'з'], .lit [' '], .number, .lit [' '], .cls false [.rng 'Х' 'Х', .rng 'х' 'х'], .cls false [.rng 'В' 'В', .rng 'в' 'в', .rng 'ᲀ' 'ᲀ'], .cls false [.rng 'І' 'І', .rng 'і' 'і'], .cls false [.rng 'Л' 'Л', .rng 'л' 'л'], .cls false [.rng 'І' 'І', .rng 'і' 'і'], .cls false [.rng 'Н' 'Н', .rng 'н' 'н'], .cls false [.rng 'Ы' 'Ы', .rng 'ы' 'ы']], .seqs [.number, .lit [' '], .cls false [.rng 'М' 'М', .rng 'м' 'м'], .cls false [.rng 'Е' 'Е', .rng 'е' 'е'], .cls false [.rng 'С' 'С', .rng 'с' 'с', .rng 'ᲃ' 'ᲃ'], .cls false [.rng 'Я' 'Я', .rng 'я' 'я'], .cls false [.rng 'Ц' 'Ц', .rng 'ц' 'ц'], .cls false [.rng 'А' 'А', .rng 'а' 'а'], .lit [' '], .cls false [.rng 'Т' 'Т', .rng 'т' 'т', .rng 'ᲄ' 'ᲄ', .rng 'ᲅ' 'ᲅ'], .cls false [.rng 'А' 'А', .rng 'а' 'а'], .cls false [.rng 'М' 'М', .rng 'м' 'м'], .cls false [.rng 'У' 'У', .rng 'у' 'у']], .seqs [.cls false [.rng 'П' 'П', .rng 'п' 'п'], .cls false [.rng 'Р' 'Р', .rng 'р' 'р'], .cls false [.rng 'А' 'А', .rng 'а' 'а'], .cls false [.rng 'З' 'З', .rng 'з' 'з'], .lit [' '], .number, .lit [' '], .cls false [.rng 'М' 'М', .rng 'м' 'м'], .cls false [.rng 'Е' 'Е', .rng 'е' 'е'], .cls false [.rng 'С' 'С', .rng 'с' 'с', .rng 'ᲃ' 'ᲃ'], .cls false [.rng 'Я' 'Я', .rng 'я' 'я'], .cls false [.rng 'Ц' 'Ц', .rng 'ц' 'ц'], .cls false [.rng 'А' 'А', .rng 'а' 'а']], .seqs [.number, .lit [' '], .cls false [.rng 'Д' 'Д', .rng 'д' 'д', .rng 'ᲁ' 'ᲁ'], .cls false [.rng 'З' 'З', .rng 'з' 'з'], .cls false [.rng 'Е' 'Е', .rng 'е' 'е'], .cls false [.rng 'Н' 'Н', .rng 'н' 'н'], .cls false [.rng 'Ь' 'Ь', .rng 'ь' 'ь'], .lit [' '], .cls false [.rng 'Т' 'Т', .rng 'т' 'т', .rng 'ᲄ' 'ᲄ', .rng 'ᲅ' 'ᲅ'], .cls false [.rng 'А' 'А', .rng 'а' 'а'], .cls false [.rng 'М' 'М', .rng 'м' 'м'], .cls false [.rng 'У' 'У', .rng 'у' 'у']], .seqs [.number, .lit [' '], .cls false [.rng 'М' 'М', .rng 'м' 'м'], .cls false [.rng 'Е' 'Е', .rng 'е' 'е'], .cls false [.rng 'С' 'С', .rng 'с' 'с', .rng 'ᲃ' 'ᲃ'], .cls false [.rng 'Я' 'Я', .rng 'я' 'я'], .cls false [.rng 'Ц' 'Ц', .rng 'ц' 'ц'], .lit [' '], .cls false [.rng 'Т' 'Т', .rng 'т' 'т', .rng 'ᲄ' 'ᲄ', .rng 'ᲅ' 'ᲅ'], .cls false [.rng 'А' 'А', .rng 'а' 'а'], .cls false [.rng 'М' 'М', .rng 'м' 'м'], .cls false [.rng 'У' 'У', .rng 'у' 'у']], .seqs [.number, .lit [' '], .cls false [.rng 'Т' 'Т', .rng 'т' 'т', .rng 'ᲄ' 'ᲄ', .rng 'ᲅ' 'ᲅ'], .cls false [.rng 'Ы' 'Ы', .rng 'ы' 'ы'], .cls false [.rng 'Д' 'Д', .rng 'д' 'д', .rng 'ᲁ' 'ᲁ'], .cls false [.rng 'Н' 'Н', .rng 'н' 'н'], .cls false [.rng 'Я' 'Я', .rng 'я' 'я'], .lit [' '], .cls false [.rng 'Т' 'Т', .rng 'т' 'т', .rng 'ᲄ' 'ᲄ', .rng 'ᲅ' 'ᲅ'], .cls false [.rng 'А' 'А', .rng 'а' 'а'], .cls false [.rng 'М' 'М', .rng 'м' 'м'], .cls false [.rng 'У' 'У', .rng 'у' 'у']], .seqs [.cls false [.rng 'П' 'П', .rng 'п' 'п'], .cls false [.rng 'Р' 'Р', .rng 'р' 'р'], .cls false [.rng 'А' 'А', .rng 'а' 'а'], .cls false [.rng 'З' 'З', .rng 'з' 'з'], .lit [' '], .number, .lit [' '], .cls false [.rng 'Д' 'Д', .rng 'д' 'д', .rng 'ᲁ' 'ᲁ'], .cls false [.rng 'З' 'З', .rng 'з' 'з'], .cls false [.rng 'Е' 'Е', .rng 'е' 'е'], .cls false [.rng 'Н' 'Н', .rng 'н' 'н'], .cls false [.rng 'Ь' 'Ь', .rng 'ь' 'ь']], .seqs [.cls false [.rng 'П' 'П', .rng 'п' 'п'], .cls false [.rng 'Р' 'Р', .rng 'р' 'р'], .cls false [.rng 'А' 'А', .rng 'а' 'а'], .cls false [.rng 'З' 'З', .rng 'з' 'з'], .lit [' '], .number, .lit [' '], .cls false [.rng 'М' 'М', .rng 'м' 'м'], .cls false [.rng 'Е' 'Е', .rng 'е' 'е'], .cls false [.rng 'С' 'С', .rng 'с' 'с', .rng 'ᲃ' 'ᲃ'], .cls false [.rng 'Я' 'Я', .rng 'я' 'я'], .cls false [.rng 'Ц' 'Ц', .rng 'ц' 'ц']], .seqs [.cls false [.rng 'П' 'П', .rng 'п' 'п'], .cls false [.rng 'Р' 'Р', .rng 'р' 'р'], .cls false [.rng 'А' 'А', .rng 'а' 'а'], .cls false [.rng 'З' 'З', .rng 'з' 'з'], .lit [' '], .number, .lit [' '], .cls false [.rng 'Т' 'Т', .rng 'т' 'т', .rng 'ᲄ' 'ᲄ', .rng 'ᲅ' 'ᲅ'], .cls false [.rng 'Ы' 'Ы', .rng 'ы' 'ы'], .cls false [.rng 'Д' 'Д', .rng 'д' 'д', .rng 'ᲁ' 'ᲁ'], .cls false [.rng 'Н' 'Н', .rng 'н' 'н'], .cls false [.rng 'Я' 'Я', .rng 'я' 'я']], .seqs [.number, .lit [' '], .cls false [.rng 'Г' 'Г', .rng 'г' 'г'], .cls false [.rng 'А' 'А', .rng 'а' 'а'], .cls false [.rng 'Д' 'Д', .rng 'д' 'д', .rng 'ᲁ' 'ᲁ'], .cls false [.rng 'З' 'З', .rng 'з' 'з'], .lit [' '], .cls false [.rng 'Т' 'Т', .rng 'т' 'т', .rng 'ᲄ' 'ᲄ', .rng 'ᲅ' 'ᲅ'], .cls false [.rng 'А' 'А', .rng 'а' 'а'], .cls false [.rng 'М' 'М', .rng 'м' 'м'], .cls false [.rng 'У' 'У', .rng 'у' 'у']], .seqs [.number, .lit [' '], .cls false [.rng 'Г' 'Г', .rng 'г' 'г'], .cls false [.rng 'О' 'О', .rng 'о' 'о', .rng 'ᲂ' 'ᲂ'], .cls false [.rng 'Д' 'Д', .rng 'д' 'д', .rng 'ᲁ' 'ᲁ'], .cls false [.rng 'А' 'А', .rng 'а' 'а'], .lit [' '], .cls false [.rng 'Т' 'Т', .rng 'т' 'т', .rng 'ᲄ' 'ᲄ', .rng 'ᲅ' 'ᲅ'], .cls false [.rng 'А' 'А', .rng 'а' 'а'], .cls false [.rng 'М' 'М', .rng 'м' 'м'], .cls false [.rng 'У' 'У', .rng 'у' 'у']], .seqs [.cls false [.rng 'П' 'П', .rng 'п' 'п'], .cls false [.rng 'Р' 'Р', .rng 'р' 'р'], .cls false [.rng 'А' 'А', .rng 'а' 'а'], .cls false [.rng 'З' 'З', .rng 'з' 'з'], .lit [' '], .number, .lit [' '], .cls false [.rng 'Г' 'Г', .rng 'г' 'г'], .cls false [.rng 'А' 'А', .rng 'а' 'а'], .cls false [.rng 'Д' 'Д', .rng 'д' 'д', .rng 'ᲁ' 'ᲁ'], .cls false [.rng 'З' 'З', .rng 'з' 'з']], .seqs [.cls false [.rng 'П' 'П', .rng 'п' 'п'], .cls false [.rng 'Р' 'Р', .rng 'р' 'р'], .cls false [.rng 'А' 'А', .rng 'а' 'а'], .cls false [.rng 'З' 'З', .rng 'з' 'з'], .lit [' '], .number, .lit [' '], .cls false [.rng 'Г' 'Г', .rng 'г' 'г'], .cls false [.rng 'О' 'О', .rng 'о' 'о', .rng 'ᲂ' 'ᲂ'], .cls false [.rng 'Д' 'Д', .rng 'д' 'д', .rng 'ᲁ' 'ᲁ'], .cls false [.rng 'А' 'А', .rng 'а' 'а']], .seqs [.number, .lit [' '], .cls false [.rng 'Г' 'Г', .rng 'г' 'г'], .cls false [.rng 'О' 'О', .rng 'о' 'о', .rng 'ᲂ' 'ᲂ'], .cls false [.rng 'Д' 'Д', .rng 'д' 'д', .rng 'ᲁ' 'ᲁ'], .lit [' '], .cls false [.rng 'Т' 'Т', .rng 'т' 'т', .rng 'ᲄ' 'ᲄ', .rng 'ᲅ' 'ᲅ'], .cls false [.rng 'А' 'А', .rng 'а' 'а'], .cls false [.rng 'М' 'М', .rng 'м' 'м'], .cls false [.rng 'У' 'У', .rng 'у' 'у']], .seqs [.number, .lit [' '], .cls false [.rng 'Д' 'Д', .rng 'д' 'д', .rng 'ᲁ' 'ᲁ'], .cls false [.rng 'Н' 'Н', .rng 'н' 'н'], .cls false [.rng 'Я' 'Я', .rng 'я' 'я'], .lit [' '], .cls false [.rng 'Т' 'Т', .rng 'т' 'т', .rng 'ᲄ' 'ᲄ', .rng 'ᲅ' 'ᲅ'], .cls false [.rng 'А' 'А', .rng 'а' 'а'], .cls false [.rng 'М' 'М', .rng 'м' 'м'], .cls false [.rng 'У' 'У', .rng 'у' 'у']], .seqs [.number, .lit [' '], .cls false [.rng 'М' 'М', .rng 'м' 'м'], .cls false [.rng 'Е' 'Е', .rng 'е' 'е'], .cls false [.rng 'С' 'С', .rng 'с' 'с', .rng 'ᲃ' 'ᲃ'], .lit [' '], .cls false [.rng 'Т' 'Т', .rng 'т' 'т', .rng 'ᲄ' 'ᲄ', .rng 'ᲅ' 'ᲅ'], .cls false [.rng 'А' 'А', .rng 'а' 'а'], .cls false [.rng 'М' 'М', .rng 'м' 'м'], .cls false [.rng 'У' 'У', .rng 'у' 'у']], .seqs [.number, .lit [' '], .cls false [.rng 'Т' 'Т', .rng 'т' 'т', .rng 'ᲄ' 'ᲄ', .rng 'ᲅ' 'ᲅ'], .cls false [.rng 'Ы' 'Ы', .rng 'ы' 'ы'], .cls false [.rng 'Д' 'Д', .rng 'д' 'д', .rng 'ᲁ' 'ᲁ'], .lit [' '], .cls false [.rng 'Т' 'Т', .rng 'т' 'т', .rng 'ᲄ' 'ᲄ', .rng 'ᲅ' 'ᲅ'], .cls false [.rng 'А' 'А', .rng 'а' 'а'], .cls false [.rng 'М' 'М', .rng 'м' 'м'], .cls false [.rng 'У' 'У', .rng 'у' 'у']], .seqs [.cls false [.rng 'П' 'П', .rng 'п' 'п'], .cls false [.rng 'Р' 'Р', .rng 'р' 'р'], .cls false [.rng 'А' 'А', .rng 'а' 'а'], .cls false [.rng 'З' 'З', .rng 'з' 'з'], .lit [' '], .number, .lit [' '], .cls false [.rng 'Г' 'Г', .rng 'г' 'г'], .cls false [.rng 'О' 'О', .rng 'о' 'о', .rng 'ᲂ' 'ᲂ'], .cls false [.rng 'Д' 'Д', .rng 'д' 'д', .rng 'ᲁ' 'ᲁ']], .seqs [.cls false [.rng 'П' 'П', .rng 'п' 'п'], .cls false [.rng 'Р' 'Р', .rng 'р' 'р'], .cls false [.rng 'А' 'А', .rng 'а' 'а'], .cls false [.rng 'З' 'З', .rng 'з' 'з'], .lit [' '], .number, .lit [' '], .cls false [.rng 'Д' 'Д', .rng 'д' 'д', .rng 'ᲁ' 'ᲁ'], .cls false [.rng 'Н' 'Н', .rng 'н' 'н'], .cls false [.rng 'Я' 'Я', .rng 'я' 'я']], .seqs [.cls false [.rng 'П' 'П', .rng 'п' 'п'], .cls false [.rng 'Р' 'Р', .rng 'р' 'р'], .cls false [.rng 'А' 'А', .rng 'а' 'а'], .cls false [.rng 'З' 'З', .rng 'з' 'з'], .lit [' '], .number, .lit [' '], .cls false [.rng 'М' 'М', .rng 'м' 'м'], .cls false [.rng 'Е' 'Е', .rng 'е' 'е'], .cls false [.rng 'С' 'С', .rng 'с' 'с', .rng 'ᲃ' 'ᲃ']], .seqs [.cls false [.rng 'П' 'П', .rng 'п' 'п'], .cls false [.rng 'Р' 'Р', .rng 'р' 'р'], .cls false [.rng 'А' 'А', .rng 'а' 'а'], .cls false [.rng 'З' 'З', .rng 'з' 'з'], .lit [' '], .number, .lit [' '], .cls false [.rng 'Т' 'Т', .rng 'т' 'т', .rng 'ᲄ' 'ᲄ', .rng 'ᲅ' 'ᲅ'], .cls false [.rng 'Ы' 'Ы', .rng 'ы' 'ы'], .cls false [.rng 'Д' 'Д', .rng 'д' 'д', .rng 'ᲁ' 'ᲁ']], .seqs [.number, .lit [' '], .cls false [.rng 'Х' 'Х', .rng 'х' 'х'], .cls false [.rng 'В' 'В', .rng 'в' 'в', .rng 'ᲀ' 'ᲀ'], .lit [' '], .cls false [.rng 'Т' 'Т', .rng 'т' 'т', .rng 'ᲄ' 'ᲄ', .rng 'ᲅ' 'ᲅ'], .cls false [.rng 'А' 'А', .rng 'а' 'а'], .cls false [.rng 'М' 'М', .rng 'м' 'м'], .cls false [.rng 'У' 'У', .rng 'у' 'у']], .seqs [.cls false [.rng 'П' 'П', .rng 'п' 'п'], .cls false [.rng 'Р' 'Р', .rng 'р' 'р'], .cls false [.rng 'А' 'А', .rng 'а' 'а'], .cls false [.rng 'З' 'З', .rng 'з' 'з'], .lit [' '], .number, .lit [' '], .cls false [.rng 'Х' 'Х', .rng 'х' 'х'], .cls false [.rng 'В' 'В', .rng 'в' 'в', .rng 'ᲀ' 'ᲀ']], .seqs [.number, .lit [' '], .cls false [.rng 'Г' 'Г', .rng 'г' 'г'], .lit [' '], .cls false [.rng 'Т' 'Т', .rng 'т' 'т', .rng 'ᲄ' 'ᲄ', .rng 'ᲅ' 'ᲅ'], .cls false [.rng 'А' 'А', .rng 'а' 'а'], .cls false [.rng 'М' 'М', .rng 'м' 'м'], .cls false [.rng 'У' 'У', .rng 'у' 'у']], .seqs [.number, .lit [' '], .cls false [.rng 'Д' 'Д', .rng 'д' 'д', .rng 'ᲁ' 'ᲁ'], .lit [' '], .cls false [.rng 'Т' 'Т', .rng 'т' 'т', .rng 'ᲄ' 'ᲄ', .rng 'ᲅ' 'ᲅ'], .cls false [.rng 'А' 'А', .rng 'а' 'а'], .cls false [.rng 'М' 'М', .rng 'м' 'м'], .cls false [.rng 'У' 'У', .rng 'у' 'у']], .seqs [.number, .lit [' '], .cls false [.rng 'С' 'С', .rng 'с' 'с', .rng 'ᲃ' 'ᲃ'], .lit [' '], .cls false [.rng 'Т' 'Т', .rng 'т' 'т', .rng 'ᲄ' 'ᲄ', .rng 'ᲅ' 'ᲅ'], .cls false [.rng 'А' 'А', .rng 'а' 'а'], .cls false [.rng 'М' 'М', .rng 'м' 'м'], .cls false [.rng 'У' 'У', .rng 'у' 'у']], .seqs [.cls false [.rng 'П' 'П', .rng 'п' 'п'], .cls false [.rng 'Р' 'Р', .rng 'р' 'р'], .cls false [.rng 'А' 'А', .rng 'а' 'а'], .cls false [.rng 'З' 'З', .rng 'з' 'з'], .lit [' '], .number, .lit [' '], .cls false [.rng 'Г' 'Г', .rng 'г' 'г']], .seqs [.cls false [.rng 'П' 'П', .rng 'п' 'п'], .cls false [.rng 'Р' 'Р', .rng 'р' 'р'], .cls false [.rng 'А' 'А', .rng 'а' 'а'], .cls false [.rng 'З' 'З', .rng 'з' 'з'], .lit [' '], .number, .lit [' '], .cls false [.rng 'Д' 'Д', .rng 'д' 'д', .rng 'ᲁ' 'ᲁ']], .seqs [.cls false [.rng 'П' 'П', .rng 'п' 'п'], .cls false [.rng 'Р' 'Р', .rng 'р' 'р'], .cls false [.rng 'А' 'А', .rng 'а' 'а'], .cls false [.rng 'З' 'З', .rng 'з' 'з'], .lit [' '], .number, .lit [' '], .cls false [.rng 'С' 'С', .rng 'с' 'с', .rng 'ᲃ' 'ᲃ']]]), .eos]),
  knownWords :=
   [['н', 'а', ' ', 'н', 'а', 'с', 'т', 'у', 'п', 'н', 'ы', 'м', ' ', 'т', 'ы', 'д', 'н', 'і'], ['у', ' ', 'н', 'а', 'с', 'т', 'у', 'п', 'н', 'ы', 'м', ' ', 'м', 'е', 'с', 'я', 'ц', 'ы'], ['у', ' ', 'н', 'а', 'с', 'т', 'у', 'п', 'н', 'ы', 'м', ' ', 'г', 'о', 'д', 'з', 'е'], ['н', 'а', ' ', 'м', 'і', 'н', 'у', 'л', 'ы', 'м', ' ', 'т', 'ы', 'д', 'н', 'і'], ['у', ' ', 'м', 'і', 'н', 'у', 'л', 'ы', 'м', ' ', 'м', 'е', 'с', 'я', 'ц', 'ы'], ['у', ' ', 'м', 'і', 'н', 'у', 'л', 'ы', 'м', ' ', 'г', 'о', 'д', 'з', 'е'], ['н', 'а', ' ', 'г', 'э', 'т', 'ы', 'м', ' ', 'т', 'ы', 'д', 'н', 'і'], ['у', ' ', 'г', 'э', 'т', 'у', ' ', 'г', 'а', 'д', 'з', 'і', 'н', 'у'], ['у', ' ', 'г', 'э', 'т', 'у', ' ', 'х', 'в', 'і', 'л', 'і', 'н', 'у'], ['у', ' ', 'г', 'э', 'т', 'ы', 'м', ' ', 'м', 'е', 'с', 'я', 'ц', 'ы'], ['у', ' ', 'г', 'э', 'т', 'ы', 'м', ' ', 'г', 'о', 'д', 'з', 'е'], ['к', 'а', 'с', 'т', 'р', 'ы', 'ч', 'н', 'і', 'к', 'а'], ['к', 'а', 'с', 'т', 'р', 'ы', 'ч', 'н', 'і', 'к'], ['н', 'а', ' ', 'п', 'р', 'а', 'ц', 'я', 'г', 'у'], ['п', 'а', 'н', 'я', 'д', 'з', 'е', 'л', 'а', 'к'], ['т', 'а', 'м', 'у', ' ', 'н', 'а', 'з', 'а', 'д'], ['к', 'р', 'а', 'с', 'а', 'в', 'і', 'к', 'а'], ['л', 'і', 'с', 'т', 'а', 'п', 'а', 'д', 'а'], ['п', 'а', 'з', 'а', 'у', 'ч', 'о', 'р', 'а'], ['в', 'е', 'р', 'а', 'с', 'е', 'н', 'ь'], ['к', 'р', 'а', 'с', 'а', 'в', 'і', 'к'], ['л', 'і', 'с', 'т', 'а', 'п', 'а', 'д'], ['с', 'а', 'к', 'а', 'в', 'і', 'к', 'а'], ['с', 'т', 'у', 'д', 'з', 'е', 'н', 'ь'], ['с', 'т', 'у', 'д', 'з', 'е', 'н', 'я'], ['а', 'у', 'т', 'о', 'р', 'а', 'к'], ['в', 'е', 'р', 'а', 'с', 'н', 'я'], ['г', 'а', 'д', 'з', 'і', 'н', 'а'], ['г', 'а', 'д', 'з', 'і', 'н', 'у'], ['г', 'а', 'д', 'з', 'і', 'н', 'ы'], ['ж', 'н', 'і', 'в', 'е', 'н', 'ь'], ['ж', 'н', 'і', 'в', 'е', 'н', 'я'], ['м', 'е', 'с', 'я', 'ц', 'а', 'у'], ['н', 'я', 'д', 'з', 'е', 'л', 'я'], ['п', 'я', 'т', 'н', 'і', 'ц', 'а'], ['с', 'а', 'к', 'а', 'в', 'і', 'к'], ['с', 'е', 'к', 'у', 'н', 'д', 'а'], ['с', 'е', 'к', 'у', 'н', 'д', 'у'], ['с', 'е', 'к', 'у', 'н', 'д', 'ы'], ['с', 'н', 'е', 'ж', 'а', 'н', 'ь'], ['т', 'ы', 'д', 'з', 'е', 'н', 'ь'], ['х', 'в', 'і', 'л', 'і', 'н', 'а'], ['х', 'в', 'і', 'л', 'і', 'н', 'у'], ['х', 'в', 'і', 'л', 'і', 'н', 'ы'], ['ч', 'э', 'р', 'в', 'е', 'н', 'ь'], ['ч', 'э', 'р', 'в', 'е', 'н', 'я'], ['г', 'а', 'д', 'з', 'і', 'н'], ['ж', 'н', 'і', 'у', 'н', 'я'], ['з', 'а', 'у', 'т', 'р', 'а'], ['л', 'ю', 'т', 'а', 'г', 'а'], ['л', 'і', 'п', 'е', 'н', 'ь'], ['л', 'і', 'п', 'е', 'н', 'я'], ['м', 'е', 'с', 'я', 'ц', 'а'], ['м', 'е', 'с', 'я', 'ц', 'ы'], ['с', 'е', 'к', 'у', 'н', 'д'], ['с', 'е', 'р', 'а', 'д', 'а'], ['с', 'н', 'е', 'ж', 'н', 'я'], ['с', 'у', 'б', 'о', 'т', 'а'], ['т', 'р', 'а', 'у', 'н', 'я'], ['т', 'ы', 'д', 'н', 'я', 'у'], ['х', 'в', 'і', 'л', 'і', 'н'], ['ч', 'а', 'ц', 'в', 'е', 'р'], ['г', 'а', 'д', 'о', 'у'], ['д', 'з', 'е', 'н', 'ь'], ['м', 'е', 'с', 'я', 'ц'], ['н', 'а', 'з', 'а', 'д'], ['с', 'е', 'н', 'н', 'я'], ['т', 'ы', 'д', 'н', 'я'], ['т', 'ы', 'д', 'н', 'і'], ['у', 'ч', 'о', 'р', 'а'], ['ц', 'я', 'п', 'е', 'р'], ['г', 'а', 'д', 'з'], ['г', 'а', 'д', 'ы'], ['г', 'о', 'д', 'а'], ['д', 'з', 'е', 'н'], ['к', 'а', 'л', 'я'], ['л', 'ю', 'т', 'ы'], ['т', 'а', 'м', 'у'], ['х', 'в', 'і', 'л'], ['g', 'm', 't'], ['u', 't', 'c'], ['а', 'у', 'т'], ['в', 'е', 'р'], ['в', 'р', 'с'], ['г', 'о', 'д'], ['д', 'н', 'і'], ['ж', 'н', 'в'], ['ж', 'н', 'і'], ['к', 'а', 'с'], ['к', 'р', 'а'], ['к', 'р', 'с'], ['к', 'с', 'т'], ['л', 'ю', 'т'], ['л', 'і', 'п'], ['л', 'і', 'с'], ['м', 'а', 'и'], ['м', 'а', 'я'], ['м', 'е', 'с'], ['н', 'я', 'д'], ['п', 'н', 'д'], ['п', 'я', 'т'], ['с', 'а', 'к'], ['с', 'е', 'к'], ['с', 'н', 'е'], ['с', 'н', 'ж'], ['с', 'т', 'д'], ['с', 'т', 'у'], ['с', 'у', 'б'], ['т', 'р', 'а'], ['т', 'ы', 'д'], ['ч', 'ц', 'в'], ['ч', 'э', 'р'], ['a', 'm'], ['p', 'm'], ['а', 'у'], ['н', 'д'], ['п', 'н'], ['п', 'т'], ['с', 'б'], ['с', 'р'], ['х', 'в'], ['ч', 'в'], ['ч', 'ц'], [' '], ['\''], ['+'], [','], ['-'], ['.'], ['/'], [':'], [';'], ['@'], ['['], [']'], ['z'], ['|'], ['г'], ['д'], ['с'], ['у'], ['і']] }

/-- internal/data/bem.go: `bem_Locale`. -/
def bemLang : LangData := { bemDict with
  knownWords :=
   [['p', 'a', 'c', 'h', 'i', 'b', 'e', 'l', 'u', 's', 'h', 'i'], ['p', 'a', 'l', 'i', 'c', 'h', 'i', 'b', 'u', 'l', 'i'], ['p', 'a', 'l', 'i', 'c', 'h', 'i', 's', 'a', 'n', 'o'], ['p', 'a', 'l', 'i', 'c', 'h', 'i', 't', 'a', 't', 'u'], ['t', 'h', 'i', 's', ' ', 'm', 'i', 'n', 'u', 't', 'e'], ['l', 'a', 's', 't', ' ', 'm', 'o', 'n', 't', 'h'], ['n', 'e', 'x', 't', ' ', 'm', 'o', 'n', 't', 'h'], ['p', 'a', ' ', 'm', 'u', 'l', 'u', 'n', 'g', 'u'], ['t', 'h', 'i', 's', ' ', 'm', 'o', 'n', 't', 'h'], ['l', 'a', 's', 't', ' ', 'w', 'e', 'e', 'k'], ['l', 'a', 's', 't', ' ', 'y', 'e', 'a', 'r'], ['n', 'e', 'x', 't', ' ', 'w', 'e', 'e', 'k'], ['n', 'e', 'x', 't', ' ', 'y', 'e', 'a', 'r'], ['p', 'a', 'l', 'i', 'c', 'h', 'i', 'm', 'o'], ['p', 'a', 'l', 'i', 'c', 'h', 'i', 'n', 'e'], ['t', 'h', 'i', 's', ' ', 'h', 'o', 'u', 'r'], ['t', 'h', 'i', 's', ' ', 'w', 'e', 'e', 'k'], ['t', 'h', 'i', 's', ' ', 'y', 'e', 'a', 'r'], ['y', 'e', 's', 't', 'e', 'r', 'd', 'a', 'y'], ['f', 'e', 'b', 'r', 'u', 'a', 'r', 'i'], ['s', 'e', 'p', 't', 'e', 'm', 'b', 'a'], ['t', 'o', 'm', 'o', 'r', 'r', 'o', 'w'], ['u', 'b', 'u', 's', 'h', 'i', 'k', 'u'], ['u', 'l', 'u', 'c', 'h', 'e', 'l', 'o'], ['u', 'm', 'u', 'l', 'u', 'n', 'g', 'u'], ['a', 'k', 'a', 's', 'u', 'b', 'a'], ['d', 'i', 's', 'e', 'm', 'b', 'a'], ['j', 'a', 'n', 'u', 'a', 'r', 'i'], ['n', 'o', 'v', 'e', 'm', 'b', 'a'], ['s', 'e', 'k', 'o', 'n', 'd', 'i'], ['u', 'm', 'w', 'e', 's', 'h', 'i'], ['m', 'i', 'n', 'e', 't', 'i'], ['o', 'g', 'a', 's', 't', 'i'], ['o', 'k', 't', 'o', 'b', 'a'], ['u', 'm', 'w', 'a', 'k', 'a'], ['e', 'p', 'r', 'e', 'o'], ['j', 'u', 'l', 'a', 'i'], ['m', 'a', 'c', 'h', 'i'], ['i', 'n', 's', 'a'], ['j', 'u', 'n', 'i'], ['l', 'e', 'l', 'o'], ['d', 'i', 's'], ['e', 'p', 'r'], ['f', 'e', 'b'], ['g', 'm', 't'], ['j', 'a', 'n'], ['j', 'u', 'l'], ['j', 'u', 'n'], ['m', 'a', 'c'], ['m', 'e', 'i'], ['n', 'o', 'v'], ['n', 'o', 'w'], ['o', 'g', 'a'], ['o', 'k', 't'], ['s', 'e', 'p'], ['u', 't', 'c'], ['a', 'm'], ['p', 'm'], [' '], ['\''], ['+'], [','], ['-'], ['.'], ['/'], [':'], [';'], ['@'], ['['], [']'], ['z'], ['|']] }

/-- internal/data/bez.go: `bez_Locale`. -/
def bezLang : LangData := { bezDict with
  knownWords :=
   [['p', 'a', ' ', 'm', 'w', 'e', 'd', 'z', 'i', ' ', 'g', 'w', 'a', ' ', 'k', 'u', 'm', 'i', ' ', 'n', 'a', ' ', 'm', 'b', 'i', 'l', 'i'], ['p', 'a', ' ', 'm', 'w', 'e', 'd', 'z', 'i', ' ', 'g', 'w', 'a', ' ', 'k', 'u', 'm', 'i', ' ', 'n', 'a', ' ', 'm', 'o', 'j', 'a'], ['p', 'a', ' ', 'm', 'w', 'e', 'd', 'z', 'i', ' ', 'g', 'w', 'a', ' ', 'h', 'u', 't', 'a', 'l', 'a'], ['p', 'a', ' ', 'm', 'w', 'e', 'd', 'z', 'i', ' ', 'g', 'w', 'a', ' ', 'w', 'u', 'd', 'a', 't', 'u'], ['p', 'a', ' ', 'm', 'w', 'e', 'd', 'z', 'i', ' ', 'g', 'w', 'a', ' ', 'w', 'u', 'h', 'a', 'n', 'u'], ['p', 'a', ' ', 'm', 'w', 'e', 'd', 'z', 'i', ' ', 'g', 'w', 'a', ' ', 'w', 'u', 'v', 'i', 'l', 'i'], ['p', 'a', ' ', 'm', 'w', 'e', 'd', 'z', 'i', ' ', 'g', 'w', 'a', ' ', 'w', 'u', 't', 'a', 'i'], ['p', 'a', ' ', 'm', 'w', 'e', 'd', 'z', 'i', ' ', 'g', 'w', 'a', ' ', 'k', 'u', 'm', 'i'], ['p', 'a', ' ', 'm', 'w', 'e', 'd', 'z', 'i', ' ', 'g', 'w', 'a', ' ', 'n', 'a', 'n', 'e'], ['p', 'a', ' ', 'm', 'w', 'e', 'd', 'z', 'i', ' ', 'g', 'w', 'a', ' ', 's', 'a', 'b', 'a'], ['p', 'a', ' ', 'm', 'w', 'e', 'd', 'z', 'i', ' ', 'g', 'w', 'a', ' ', 's', 'i', 't', 'a'], ['p', 'a', ' ', 'm', 'w', 'e', 'd', 'z', 'i', ' ', 'g', 'w', 'a', ' ', 't', 'i', 's', 'a'], ['p', 'a', ' ', 's', 'h', 'a', 'h', 'u', 'l', 'e', 'm', 'b', 'e', 'l', 'a'], ['m', 'l', 'u', 'n', 'g', 'u', ' ', 'g', 'u', 'm', 'a', 'm', 'f', 'u'], ['p', 'a', ' ', 's', 'h', 'a', 'h', 'u', 'v', 'i', 'l', 'u', 'h', 'a'], ['t', 'h', 'i', 's', ' ', 'm', 'i', 'n', 'u', 't', 'e'], ['l', 'a', 's', 't', ' ', 'm', 'o', 'n', 't', 'h'], ['n', 'e', 'x', 't', ' ', 'm', 'o', 'n', 't', 'h'], ['p', 'a', ' ', 'm', 'u', 'l', 'u', 'n', 'g', 'u'], ['t', 'h', 'i', 's', ' ', 'm', 'o', 'n', 't', 'h'], ['l', 'a', 's', 't', ' ', 'w', 'e', 'e', 'k'], ['l', 'a', 's', 't', ' ', 'y', 'e', 'a', 'r'], ['n', 'e', 'n', 'g', '\'', 'u', ' ', 'n', 'i'], ['n', 'e', 'x', 't', ' ', 'w', 'e', 'e', 'k'], ['n', 'e', 'x', 't', ' ', 'y', 'e', 'a', 'r'], ['p', 'a', ' ', 'h', 'i', 'd', 'a', 't', 'u'], ['p', 'a', ' ', 'h', 'i', 'h', 'a', 'n', 'u'], ['p', 'a', ' ', 'h', 'i', 't', 'a', 'y', 'i'], ['p', 'a', ' ', 'h', 'i', 'v', 'i', 'l', 'i'], ['t', 'h', 'i', 's', ' ', 'h', 'o', 'u', 'r'], ['t', 'h', 'i', 's', ' ', 'w', 'e', 'e', 'k'], ['t', 'h', 'i', 's', ' ', 'y', 'e', 'a', 'r'], ['p', 'a', 'm', 'i', 'l', 'a', 'u'], ['p', 'a', 'm', 'u', 'n', 'y', 'i'], ['s', 'e', 'k', 'u', 'n', 'd', 'e'], ['d', 'a', 'k', 'i', 'k', 'a'], ['h', 'i', 'l', 'a', 'w', 'u'], ['m', 'w', 'e', 'd', 'z', 'i'], ['i', 'g', 'o', 'l', 'o'], ['m', 'w', 'a', 'h', 'a'], ['s', 'i', 'h', 'u'], ['d', 'a', 't'], ['g', 'm', 't'], ['h', 'a', 'n'], ['h', 'i', 'd'], ['h', 'i', 'h'], ['h', 'i', 't'], ['h', 'i', 'v'], ['h', 'u', 't'], ['k', 'm', 'b'], ['k', 'm', 'j'], ['k', 'u', 'm'], ['l', 'e', 'm'], ['m', 'u', 'l'], ['n', 'a', 'n'], ['n', 'o', 'w'], ['s', 'a', 'a'], ['s', 'a', 'b'], ['s', 'i', 't'], ['t', 'a', 'i'], ['t', 'i', 's'], ['u', 't', 'c'], ['v', 'i', 'l'], ['a', 'm'], ['p', 'm'], [' '], ['\''], ['+'], [','], ['-'], ['.'], ['/'], [':'], [';'], ['@'], ['['], [']'], ['z'], ['|']] }

/-- internal/data/bg.go: `bg_Locale`. -/
def bgLang : LangData := { bgDict with
  simplifications :=
   [(.seqs [.grp 1 (.alts [.bos, .noWord]), .cls false [.rng 'Е' 'Е', .rng 'е' 'е'], .cls false [.rng 'Д' 'Д', .rng 'д' 'д', .rng 'ᲁ' 'ᲁ'], .cls false [.rng 'И' 'И', .rng 'и' 'и'], .cls false [.rng 'Н' 'Н', .rng 'н' 'н'], .grp 2 (.alts [.eos, .noWord])], [.ref 1, .lit ['1'], .ref 2]),
    (.seqs [.grp 1 (.alts [.bos, .noWord]), .cls false [.rng 'Д' 'Д', .rng 'д' 'д', .rng 'ᲁ' 'ᲁ'], .cls false [.rng 'В' 'В', .rng 'в' 'в', .rng 'ᲀ' 'ᲀ'], .cls false [.rng 'А' 'А', .rng 'а' 'а'], .grp 2 (.alts [.eos, .noWord])], [.ref 1, .lit ['2'], .ref 2]),
    (.seqs [.grp 1 (.alts [.bos, .noWord]), .cls false [.rng 'Т' 'Т', .rng 'т' 'т', .rng 'ᲄ' 'ᲄ', .rng 'ᲅ' 'ᲅ'], .cls false [.rng 'Р' 'Р', .rng 'р' 'р'], .cls false [.rng 'И' 'И', .rng 'и' 'и'], .grp 2 (.alts [.eos, .noWord])], [.ref 1, .lit ['3'], .ref 2])],
  relativeRegexes :=
   [(.seqs [.cls false [.rng 'П' 'П', .rng 'п' 'п'], .cls false [.rng 'Р' 'Р', .rng 'р' 'р'], .cls false [.rng 'Е' 'Е', .rng 'е' 'е'], .cls false [.rng 'Д' 'Д', .rng 'д' 'д', .rng 'ᲁ' 'ᲁ'], .cls false [.rng 'И' 'И', .rng 'и' 'и'], .lit [' '], .grp 1 (.number), .lit [' '], .cls false [.rng 'С' 'С', .rng 'с' 'с', .rng 'ᲃ' 'ᲃ'], .cls false [.rng 'Е' 'Е', .rng 'е' 'е'], .cls false [.rng 'Д' 'Д', .rng 'д' 'д', .rng 'ᲁ' 'ᲁ'], .cls false [.rng 'М' 'М', .rng 'м' 'м'], .cls false [.rng 'И' 'И', .rng 'и' 'и'], .cls false [.rng 'Ц' 'Ц', .rng 'ц' 'ц'], .cls false [.rng 'А' 'А', .rng 'а' 'а']], [.ref 1, .lit [' ', 'w', 'e', 'e', 'k', ' ', 'a', 'g', 'o']]),
    (.seqs [.cls false [.rng 'П' 'П', .rng 'п' 'п'], .cls false [.rng 'Р' 'Р', .rng 'р' 'р'], .cls false [.rng 'Е' 'Е', .rng 'е' 'е'], .cls false [.rng 'Д' 'Д', .rng 'д' 'д', .rng 'ᲁ' 'ᲁ'], .cls false [.rng 'И' 'И', .rng 'и' 'и'], .lit [' '], .grp 1 (.number), .lit [' '], .cls false [.rng 'С' 'С', .rng 'с' 'с', .rng 'ᲃ' 'ᲃ'], .cls false [.rng 'Е' 'Е', .rng 'е' 'е'], .cls false [.rng 'Д' 'Д', .rng 'д' 'д', .rng 'ᲁ' 'ᲁ'], .cls false [.rng 'М' 'М', .rng 'м' 'м'], .cls false [.rng 'И' 'И', .rng 'и' 'и'], .cls false [.rng 'Ц' 'Ц', .rng 'ц' 'ц'], .cls false [.rng 'И' 'И', .rng 'и' 'и']], [.ref 1, .lit [' ', 'w', 'e', 'e', 'k', ' ', 'a', 'g', 'o']]),
    (.seqs [.cls false [.rng 'П' 'П', .rng 'п' 'п'], .cls false [.rng 'Р' 'Р', .rng 'р' 'р'], .cls false [.rng 'Е' 'Е', .rng 'е' 'е'], .cls false [.rng 'Д' 'Д', .rng 'д' 'д', .rng 'ᲁ' 'ᲁ'], .cls false [.rng 'И' 'И', .rng 'и' 'и'], .lit [' '], .grp 1 (.number), .lit [' '], .cls false [.rng 'С' 'С', .rng 'с' 'с', .rng 'ᲃ' 'ᲃ'], .cls false [.rng 'Е' 'Е', .rng 'е' 'е'], .cls false [.rng 'К' 'К', .rng 'к' 'к'], .cls false [.rng 'У' 'У', .rng 'у' 'у'], .cls false [.rng 'Н' 'Н', .rng 'н' 'н'], .cls false [.rng 'Д' 'Д', .rng 'д' 'д', .rng 'ᲁ' 'ᲁ'], .cls false [.rng 'А' 'А', .rng 'а' 'а']], [.ref 1, .lit [' ', 's', 'e', 'c', 'o', 'n', 'd', ' ', 'a', 'g', 'o']]),
    (.seqs [.cls false [.rng 'П' 'П', .rng 'п' 'п'], .cls false [.rng 'Р' 'Р', .rng 'р' 'р'], .cls false [.rng 'Е' 'Е', .rng 'е' 'е'], .cls false [.rng 'Д' 'Д', .rng 'д' 'д', .rng 'ᲁ' 'ᲁ'], .cls false [.rng 'И' 'И', .rng 'и' 'и'], .lit [' '], .grp 1 (.number), .lit [' '], .cls false [.rng 'С' 'С', .rng 'с' 'с', .rng 'ᲃ' 'ᲃ'], .cls false [.rng 'Е' 'Е', .rng 'е' 'е'], .cls false [.rng 'К' 'К', .rng 'к' 'к'], .cls false [.rng 'У' 'У', .rng 'у' 'у'], .cls false [.rng 'Н' 'Н', .rng 'н' 'н'], .cls false [.rng 'Д' 'Д', .rng 'д' 'д', .rng 'ᲁ' 'ᲁ'], .cls false [.rng 'И' 'И', .rng 'и' 'и']], [.ref 1, .lit [' ', 's', 'e', 'c', 'o', 'n', 'd', ' ', 'a', 'g', 'o']]),
    (.seqs [.cls false [.rng 'П' 'П', .rng 'п' 'п'], .cls false [.rng 'Р' 'Р', .rng 'р' 'р'], .cls false [.rng 'Е' 'Е', .rng 'е' 'е'], .cls false [.rng 'Д' 'Д', .rng 'д' 'д', .rng 'ᲁ' 'ᲁ'], .cls false [.rng 'И' 'И', .rng 'и' 'и'], .lit [' '], .grp 1 (.number), .lit [' '], .cls false [.rng 'Г' 'Г', .rng 'г' 'г'], .cls false [.rng 'О' 'О', .rng 'о' 'о', .rng 'ᲂ' 'ᲂ'], .cls false [.rng 'Д' 'Д', .rng 'д' 'д', .rng 'ᲁ' 'ᲁ'], .cls false [.rng 'И' 'И', .rng 'и' 'и'], .cls false [.rng 'Н' 'Н', .rng 'н' 'н'], .cls false [.rng 'А' 'А', .rng 'а' 'а']], [.ref 1, .lit [' ', 'y', 'e', 'a', 'r', ' ', 'a', 'g', 'o']]),
    (.seqs [.cls false [.rng 'П' 'П', .rng 'п' 'п'], .cls false [.rng 'Р' 'Р', .rng 'р' 'р'], .cls false [.rng 'Е' 'Е', .rng 'е' 'е'], .cls false [.rng 'Д' 'Д', .rng 'д' 'д', .rng 'ᲁ' 'ᲁ'], .cls false [.rng 'И' 'И', .rng 'и' 'и'], .lit [' '], .grp 1 (.number), .lit [' '], .cls false [.rng 'Г' 'Г', .rng 'г' 'г'], .cls false [.rng 'О' 'О', .rng 'о' 'о', .rng 'ᲂ' 'ᲂ'], .cls false [.rng 'Д' 'Д', .rng 'д' 'д', .rng 'ᲁ' 'ᲁ'], .cls false [.rng 'И' 'И', .rng 'и' 'и'], .cls false [.rng 'Н' 'Н', .rng 'н' 'н'], .cls false [.rng 'И' 'И', .rng 'и' 'и']], [.ref 1, .lit [' ', 'y', 'e', 'a', 'r', ' ', 'a', 'g', 'o']]),
    (.seqs [.cls false [.rng 'П' 'П', .rng 'п' 'п'], .cls false [.rng 'Р' 'Р', .rng 'р' 'р'], .cls false [.rng 'Е' 'Е', .rng 'е' 'е'], .cls false [.rng 'Д' 'Д', .rng 'д' 'д', .rng 'ᲁ' 'ᲁ'], .cls false [.rng 'И' 'И', .rng 'и' 'и'], .lit [' '], .grp 1 (.number), .lit [' '], .cls false [.rng 'М' 'М', .rng 'м' 'м'], .cls false [.rng 'Е' 'Е', .rng 'е' 'е'], .cls false [.rng 'С' 'С', .rng 'с' 'с', .rng 'ᲃ' 'ᲃ'], .cls false [.rng 'Е' 'Е', .rng 'е' 'е'], .cls false [.rng 'Ц' 'Ц', .rng 'ц' 'ц'], .cls false [.rng 'А' 'А', .rng 'а' 'а']], [.ref 1, .lit [' ', 'm', 'o', 'n', 't', 'h', ' ', 'a', 'g', 'o']]),
    (.seqs [.cls false [.rng 'П' 'П', .rng 'п' 'п'], .cls false [.rng 'Р' 'Р', .rng 'р' 'р'], .cls false [.rng 'Е' 'Е', .rng 'е' 'е'], .cls false [.rng 'Д' 'Д', .rng 'д' 'д', .rng 'ᲁ' 'ᲁ'], .cls false [.rng 'И' 'И', .rng 'и' 'и'], .lit [' '], .grp 1 (.number), .lit [' '], .cls false [.rng 'М' 'М', .rng 'м' 'м'], .cls false [.rng 'И' 'И', .rng 'и' 'и'], .cls false [.rng 'Н' 'Н', .rng 'н' 'н'], .cls false [.rng 'У' 'У', .rng 'у' 'у'], .cls false [.rng 'Т' 'Т', .rng 'т' 'т', .rng 'ᲄ' 'ᲄ', .rng 'ᲅ' 'ᲅ'], .cls false [.rng 'А' 'А', .rng 'а' 'а']], [.ref 1, .lit [' ', 'm', 'i', 'n', 'u', 't', 'e', ' ', 'a', 'g', 'o']]),
    (.seqs [.cls false [.rng 'П' 'П', .rng 'п' 'п'], .cls false [.rng 'Р' 'Р', .rng 'р' 'р'], .cls false [.rng 'Е' 'Е', .rng 'е' 'е'], .cls false [.rng 'Д' 'Д', .rng 'д' 'д', .rng 'ᲁ' 'ᲁ'], .cls false [.rng 'И' 'И', .rng 'и' 'и'], .lit [' '], .grp 1 (.number), .lit [' '], .cls false [.rng 'М' 'М', .rng 'м' 'м'], .cls false [.rng 'И' 'И', .rng 'и' 'и'], .cls false [.rng 'Н' 'Н', .rng 'н' 'н'], .cls false [.rng 'У' 'У', .rng 'у' 'у'], .cls false [.rng 'Т' 'Т', .rng 'т' 'т', .rng 'ᲄ' 'ᲄ', .rng 'ᲅ' 'ᲅ'], .cls false [.rng 'И' 'И', .rng 'и' 'и']], [.ref 1, .lit [' ', 'm', 'i', 'n', 'u', 't', 'e', ' ', 'a', 'g', 'o']]),
    (.seqs [.cls false [.rng 'С' 'С', .rng 'с' 'с', .rng 'ᲃ' 'ᲃ'], .cls false [.rng 'Л' 'Л', .rng 'л' 'л'], .cls false [.rng 'Е' 'Е', .rng 'е' 'е'], .cls false [.rng 'Д' 'Д', .rng 'д' 'д', .rng 'ᲁ' 'ᲁ'], .lit [' '], .grp 1 (.number), .lit [' '], .cls false [.rng 'С' 'С', .rng 'с' 'с', .rng 'ᲃ' 'ᲃ'], .cls false [.rng 'Е' 'Е', .rng 'е' 'е'], .cls false [.rng 'Д' 'Д', .rng 'д' 'д', .rng 'ᲁ' 'ᲁ'], .cls false [.rng 'М' 'М', .rng 'м' 'м'], .cls false [.rng 'И' 'И', .rng 'и' 'и'], .cls false [.rng 'Ц' 'Ц', .rng 'ц' 'ц'], .cls false [.rng 'А' 'А', .rng 'а' 'а']], [.lit ['i', 'n', ' '], .ref 1, .lit [' ', 'w', 'e', 'e', 'k']]),
    (.seqs [.cls false [.rng 'С' 'С', .rng 'с' 'с', .rng 'ᲃ' 'ᲃ'], .cls false [.rng 'Л' 'Л', .rng 'л' 'л'], .cls false [.rng 'Е' 'Е', .rng 'е' 'е'], .cls false [.rng 'Д' 'Д', .rng 'д' 'д', .rng 'ᲁ' 'ᲁ'], .lit [' '], .grp 1 (.number), .lit [' '], .cls false [.rng 'С' 'С', .rng 'с' 'с', .rng 'ᲃ' 'ᲃ'], .cls false [.rng 'Е' 'Е', .rng 'е' 'е'], .cls false [.rng 'Д' 'Д', .rng 'д' 'д', .rng 'ᲁ' 'ᲁ'], .cls false [.rng 'М' 'М', .rng 'м' 'м'], .cls false [.rng 'И' 'И', .rng 'и' 'и'], .cls false [.rng 'Ц' 'Ц', .rng 'ц' 'ц'], .cls false [.rng 'И' 'И', .rng 'и' 'и']], [.lit ['i', 'n', ' '], .ref 1, .lit [' ', 'w', 'e', 'e', 'k']]),
    (.seqs [.cls false [.rng 'С' 'С', .rng 'с' 'с', .rng 'ᲃ' 'ᲃ'], .cls false [.rng 'Л' 'Л', .rng 'л' 'л'], .cls false [.rng 'Е' 'Е', .rng 'е' 'е'], .cls false [.rng 'Д' 'Д', .rng 'д' 'д', .rng 'ᲁ' 'ᲁ'], .lit [' '], .grp 1 (.number), .lit [' '], .cls false [.rng 'С' 'С', .rng 'с' 'с', .rng 'ᲃ' 'ᲃ'], .cls false [.rng 'Е' 'Е', .rng 'е' 'е'], .cls false [.rng 'К' 'К', .rng 'к' 'к'], .cls false [.rng 'У' 'У', .rng 'у' 'у'], .cls false [.rng 'Н' 'Н', .rng 'н' 'н'], .cls false [.rng 'Д' 'Д', .rng 'д' 'д', .rng 'ᲁ' 'ᲁ'], .cls false [.rng 'А' 'А', .rng 'а' 'а']], [.lit ['i', 'n', ' '], .ref 1, .lit [' ', 's', 'e', 'c', 'o', 'n', 'd']]),
    (.seqs [.cls false [.rng 'С' 'С', .rng 'с' 'с', .rng 'ᲃ' 'ᲃ'], .cls false [.rng 'Л' 'Л', .rng 'л' 'л'], .cls false [.rng 'Е' 'Е', .rng 'е' 'е'], .cls false [.rng 'Д' 'Д', .rng 'д' 'д', .rng 'ᲁ' 'ᲁ'], .lit [' '], .grp 1 (.number), .lit [' '], .cls false [.rng 'С' 'С', .rng 'с' 'с', .rng 'ᲃ' 'ᲃ'], .cls false [.rng 'Е' 'Е', .rng 'е' 'е'], .cls false [.rng 'К' 'К', .rng 'к' 'к'], .cls false [.rng 'У' 'У', .rng 'у' 'у'], .cls false [.rng 'Н' 'Н', .rng 'н' 'н'], .cls false [.rng 'Д' 'Д', .rng 'д' 'д', .rng 'ᲁ' 'ᲁ'], .cls false [.rng 'И' 'И', .rng 'и' 'и']], [.lit ['i', 'n', ' '], .ref 1, .lit [' ', 's', 'e', 'c', 'o', 'n', 'd']]),
    (.seqs [.cls false [.rng 'П' 'П', .rng 'п' 'п'], .cls false [.rng 'Р' 'Р', .rng 'р' 'р'], .cls false [.rng 'Е' 'Е', .rng 'е' 'е'], .cls false [.rng 'Д' 'Д', .rng 'д' 'д', .rng 'ᲁ' 'ᲁ'], .cls false [.rng 'И' 'И', .rng 'и' 'и'], .lit [' '], .grp 1 (.number), .lit [' '], .cls false [.rng 'М' 'М', .rng 'м' 'м'], .cls false [.rng 'Е' 'Е', .rng 'е' 'е'], .cls false [.rng 'С' 'С', .rng 'с' 'с', .rng 'ᲃ' 'ᲃ'], .cls false [.rng 'Е' 'Е', .rng 'е' 'е'], .cls false [.rng 'Ц' 'Ц', .rng 'ц' 'ц']], [.ref 1, .lit [' ', 'm', 'o', 'n', 't', 'h', ' ', 'a', 'g', 'o']]),
    (.seqs [.cls false [.rng 'С' 'С', .rng 'с' 'с', .rng 'ᲃ' 'ᲃ'], .cls false [.rng 'Л' 'Л', .rng 'л' 'л'], .cls false [.rng 'Е' 'Е', .rng 'е' 'е'], .cls false [.rng 'Д' 'Д', .rng 'д' 'д', .rng 'ᲁ' 'ᲁ'], .lit [' '], .grp 1 (.number), .lit [' '], .cls false [.rng 'Г' 'Г', .rng 'г' 'г'], .cls false [.rng 'О' 'О', .rng 'о' 'о', .rng 'ᲂ' 'ᲂ'], .cls false [.rng 'Д' 'Д', .rng 'д' 'д', .rng 'ᲁ' 'ᲁ'], .cls false [.rng 'И' 'И', .rng 'и' 'и'], .cls false [.rng 'Н' 'Н', .rng 'н' 'н'], .cls false [.rng 'А' 'А', .rng 'а' 'а']], [.lit ['i', 'n', ' '], .ref 1, .lit [' ', 'y', 'e', 'a', 'r']]),
    (.seqs [.cls false [.rng 'С' 'С', .rng 'с' 'с', .rng 'ᲃ' 'ᲃ'], .cls false [.rng 'Л' 'Л', .rng 'л' 'л'], .cls false [.rng 'Е' 'Е', .rng 'е' 'е'], .cls false [.rng 'Д' 'Д', .rng 'д' 'д', .rng 'ᲁ' 'ᲁ'], .lit [' '], .grp 1 (.number), .lit [' '], .cls false [.rng 'Г' 'Г', .rng 'г' 'г'], .cls false [.rng 'О' 'О', .rng 'о' 'о', .rng 'ᲂ' 'ᲂ'], .cls false [.rng 'Д' 'Д', .rng 'д' 'д', .rng 'ᲁ' 'ᲁ'], .cls false [.rng 'И' 'И', .rng 'и' 'и'], .cls false [.rng 'Н' 'Н', .rng 'н' 'н'], .cls false [.rng 'И' 'И', .rng 'и' 'и']], [.lit ['i', 'n', ' '], .ref 1, .lit [' ', 'y', 'e', 'a', 'r']]),
    (.seqs [.cls false [.rng 'С' 'С', .rng 'с' 'с', .rng 'ᲃ' 'ᲃ'], .cls false [.rng 'Л' 'Л', .rng 'л' 'л'], .cls false [.rng 'Е' 'Е', .rng 'е' 'е'], .cls false [.rng 'Д' 'Д', .rng 'д' 'д', .rng 'ᲁ' 'ᲁ'], .lit [' '], .grp 1 (.number), .lit [' '], .cls false [.rng 'М' 'М', .rng 'м' 'м'], .cls false [.rng 'Е' 'Е', .rng 'е' 'е'], .cls false [.rng 'С' 'С', .rng 'с' 'с', .rng 'ᲃ' 'ᲃ'], .cls false [.rng 'Е' 'Е', .rng 'е' 'е'], .cls false [.rng 'Ц' 'Ц', .rng 'ц' 'ц'], .cls false [.rng 'А' 'А', .rng 'а' 'а']], [.lit ['i', 'n', ' '], .ref 1, .lit [' ', 'm', 'o', 'n', 't', 'h']]),
    (.seqs [.cls false [.rng 'С' 'С', .rng 'с' 'с', .rng 'ᲃ' 'ᲃ'], .cls false [.rng 'Л' 'Л', .rng 'л' 'л'], .cls false [.rng 'Е' 'Е', .rng 'е' 'е'], .cls false [.rng 'Д' 'Д', .rng 'д' 'д', .rng 'ᲁ' 'ᲁ'], .lit [' '], .grp 1 (.number), .lit [' '], .cls false [.rng 'М' 'М', .rng 'м' 'м'], .cls false [.rng 'И' 'И', .rng 'и' 'и'], .cls false [.rng 'Н' 'Н', .rng 'н' 'н'], .cls false [.rng 'У' 'У', .rng 'у' 'у'], .cls false [.rng 'Т' 'Т', .rng 'т' 'т', .rng 'ᲄ' 'ᲄ', .rng 'ᲅ' 'ᲅ'], .cls false [.rng 'А' 'А', .rng 'а' 'а']], [.lit ['i', 'n', ' '], .ref 1, .lit [' ', 'm', 'i', 'n', 'u', 't', 'e']]),
    (.seqs [.cls false [.rng 'С' 'С', .rng 'с' 'с', .rng 'ᲃ' 'ᲃ'], .cls false [.rng 'Л' 'Л', .rng 'л' 'л'], .cls false [.rng 'Е' 'Е', .rng 'е' 'е'], .cls false [.rng 'Д' 'Д', .rng 'д' 'д', .rng 'ᲁ' 'ᲁ'], .lit [' '], .grp 1 (.number), .lit [' '], .cls false [.rng 'М' 'М', .rng 'м' 'м'], .cls false [.rng 'И' 'И', .rng 'и' 'и'], .cls false [.rng 'Н' 'Н', .rng 'н' 'н'], .cls false [.rng 'У' 'У', .rng 'у' 'у'], .cls false [.rng 'Т' 'Т', .rng 'т' 'т', .rng 'ᲄ' 'ᲄ', .rng 'ᲅ' 'ᲅ'], .cls false [.rng 'И' 'И', .rng 'и' 'и']], [.lit ['i', 'n', ' '], .ref 1, .lit [' ', 'm', 'i', 'n', 'u', 't', 'e']]),
    (.seqs [.cls false [.rng 'П' 'П', .rng 'п' 'п'], .cls false [.rng 'Р' 'Р', .rng 'р' 'р'], .cls false [.rng 'Е' 'Е', .rng 'е' 'е'], .cls false [.rng 'Д' 'Д', .rng 'д' 'д', .rng 'ᲁ' 'ᲁ'], .cls false [.rng 'И' 'И', .rng 'и' 'и'], .lit [' '], .grp 1 (.number), .lit [' '], .cls false [.rng 'С' 'С', .rng 'с' 'с', .rng 'ᲃ' 'ᲃ'], .cls false [.rng 'Е' 'Е', .rng 'е' 'е'], .cls false [.rng 'Д' 'Д', .rng 'д' 'д', .rng 'ᲁ' 'ᲁ'], .cls false [.rng 'М' 'М', .rng 'м' 'м']], [.ref 1, .lit [' ', 'w', 'e', 'e', 'k', ' ', 'a', 'g', 'o']]),
    (.seqs [.cls false [.rng 'П' 'П', .rng 'п' 'п'], .cls false [.rng 'Р' 'Р', .rng 'р' 'р'], .cls false [.rng 'Е' 'Е', .rng 'е' 'е'], .cls false [.rng 'Д' 'Д', .rng 'д' 'д', .rng 'ᲁ' 'ᲁ'], .cls false [.rng 'И' 'И', .rng 'и' 'и'], .lit [' '], .grp 1 (.number), .lit [' '], .cls false [.rng 'Ч' 'Ч', .rng 'ч' 'ч'], .cls false [.rng 'А' 'А', .rng 'а' 'а'], .cls false [.rng 'С' 'С', .rng 'с' 'с', .rng 'ᲃ' 'ᲃ'], .cls false [.rng 'А' 'А', .rng 'а' 'а']], [.ref 1, .lit [' ', 'h', 'o', 'u', 'r', ' ', 'a', 'g', 'o']]),
    (.seqs [.cls false [.rng 'С' 'С', .rng 'с' 'с', .rng 'ᲃ' 'ᲃ'], .cls false [.rng 'Л' 'Л', .rng 'л' 'л'], .cls false [.rng 'Е' 'Е', .rng 'е' 'е'], .cls false [.rng 'Д' 'Д', .rng 'д' 'д', .rng 'ᲁ' 'ᲁ'], .lit [' '], .grp 1 (.number), .lit [' '], .cls false [.rng 'М' 'М', .rng 'м' 'м'], .cls false [.rng 'Е' 'Е', .rng 'е' 'е'], .cls false [.rng 'С' 'С', .rng 'с' 'с', .rng 'ᲃ' 'ᲃ'], .cls false [.rng 'Е' 'Е', .rng 'е' 'е'], .cls false [.rng 'Ц' 'Ц', .rng 'ц' 'ц']], [.lit ['i', 'n', ' '], .ref 1, .lit [' ', 'm', 'o', 'n', 't', 'h']]),
    (.seqs [.cls false [.rng 'П' 'П', .rng 'п' 'п'], .cls false [.rng 'Р' 'Р', .rng 'р' 'р'], .cls false [.rng 'Е' 'Е', .rng 'е' 'е'], .cls false [.rng 'Д' 'Д', .rng 'д' 'д', .rng 'ᲁ' 'ᲁ'], .cls false [.rng 'И' 'И', .rng 'и' 'и'], .lit [' '], .grp 1 (.number), .lit [' '], .cls false [.rng 'Д' 'Д', .rng 'д' 'д', .rng 'ᲁ' 'ᲁ'], .cls false [.rng 'Е' 'Е', .rng 'е' 'е'], .cls false [.rng 'Н' 'Н', .rng 'н' 'н']], [.ref 1, .lit [' ', 'd', 'a', 'y', ' ', 'a', 'g', 'o']]),
    (.seqs [.cls false [.rng 'П' 'П', .rng 'п' 'п'], .cls false [.rng 'Р' 'Р', .rng 'р' 'р'], .cls false [.rng 'Е' 'Е', .rng 'е' 'е'], .cls false [.rng 'Д' 'Д', .rng 'д' 'д', .rng 'ᲁ' 'ᲁ'], .cls false [.rng 'И' 'И', .rng 'и' 'и'], .lit [' '], .grp 1 (.number), .lit [' '], .cls false [.rng 'Д' 'Д', .rng 'д' 'д', .rng 'ᲁ' 'ᲁ'], .cls false [.rng 'Н' 'Н', .rng 'н' 'н'], .cls false [.rng 'И' 'И', .rng 'и' 'и']], [.ref 1, .lit [' ', 'd', 'a', 'y', ' ', 'a', 'g', 'o']]),
    (.seqs [.cls false [.rng 'П' 'П', .rng 'п' 'п'], .cls false [.rng 'Р' 'Р', .rng 'р' 'р'], .cls false [.rng 'Е' 'Е', .rng 'е' 'е'], .cls false [.rng 'Д' 'Д', .rng 'д' 'д', .rng 'ᲁ' 'ᲁ'], .cls false [.rng 'И' 'И', .rng 'и' 'и'], .lit [' '], .grp 1 (.number), .lit [' '], .cls false [.rng 'М' 'М', .rng 'м' 'м'], .cls false [.rng 'И' 'И', .rng 'и' 'и'], .cls false [.rng 'Н' 'Н', .rng 'н' 'н']], [.ref 1, .lit [' ', 'm', 'i', 'n', 'u', 't', 'e', ' ', 'a', 'g', 'o']]),
    (.seqs [.cls false [.rng 'П' 'П', .rng 'п' 'п'], .cls false [.rng 'Р' 'Р', .rng 'р' 'р'], .cls false [.rng 'Е' 'Е', .rng 'е' 'е'], .cls false [.rng 'Д' 'Д', .rng 'д' 'д', .rng 'ᲁ' 'ᲁ'], .cls false [.rng 'И' 'И', .rng 'и' 'и'], .lit [' '], .grp 1 (.number), .lit [' '], .cls false [.rng 'С' 'С', .rng 'с' 'с', .rng 'ᲃ' 'ᲃ'], .cls false [.rng 'Е' 'Е', .rng 'е' 'е'], .cls false [.rng 'К' 'К', .rng 'к' 'к']], [.ref 1, .lit [' ', 's', 'e', 'c', 'o', 'n', 'd', ' ', 'a', 'g', 'o']]),
    (.seqs [.cls false [.rng 'П' 'П', .rng 'п' 'п'], .cls false [.rng 'Р' 'Р', .rng 'р' 'р'], .cls false [.rng 'Е' 'Е', .rng 'е' 'е'], .cls false [.rng 'Д' 'Д', .rng 'д' 'д', .rng 'ᲁ' 'ᲁ'], .cls false [.rng 'И' 'И', .rng 'и' 'и'], .lit [' '], .grp 1 (.number), .lit [' '], .cls false [.rng 'Ч' 'Ч', .rng 'ч' 'ч'], .cls false [.rng 'А' 'А', .rng 'а' 'а'], .cls false [.rng 'С' 'С', .rng 'с' 'с', .rng 'ᲃ' 'ᲃ']], [.ref 1, .lit [' ', 'h', 'o', 'u', 'r', ' ', 'a', 'g', 'o']]),
    (.seqs [.cls false [.rng 'С' 'С', .rng 'с' 'с', .rng 'ᲃ' 'ᲃ'], .cls false [.rng 'Л' 'Л', .rng 'л' 'л'], .cls false [.rng 'Е' 'Е', .rng 'е' 'е'], .cls false [.rng 'Д' 'Д', .rng 'д' 'д', .rng 'ᲁ' 'ᲁ'], .lit [' '], .grp 1 (.number), .lit [' '], .cls false [.rng 'С' 'С', .rng 'с' 'с', .rng 'ᲃ' 'ᲃ'], .cls false [.rng 'Е' 'Е', .rng 'е' 'е'], .cls false [.rng 'Д' 'Д', .rng 'д' 'д', .rng 'ᲁ' 'ᲁ'], .cls false [.rng 'М' 'М', .rng 'м' 'м']], [.lit ['i', 'n', ' '], .ref 1, .lit [' ', 'w', 'e', 'e', 'k']]),
    (.seqs [.cls false [.rng 'С' 'С', .rng 'с' 'с', .rng 'ᲃ' 'ᲃ'], .cls false [.rng 'Л' 'Л', .rng 'л' 'л'], .cls false [.rng 'Е' 'Е', .rng 'е' 'е'], .cls false [.rng 'Д' 'Д', .rng 'д' 'д', .rng 'ᲁ' 'ᲁ'], .lit [' '], .grp 1 (.number), .lit [' '], .cls false [.rng 'Ч' 'Ч', .rng 'ч' 'ч'], .cls false [.rng 'А' 'А', .rng 'а' 'а'], .cls false [.rng 'С' 'С', .rng 'с' 'с', .rng 'ᲃ' 'ᲃ'], .cls false [.rng 'А' 'А', .rng 'а' 'а']], [.lit ['i', 'n', ' '], .ref 1, .lit [' ', 'h', 'o', 'u', 'r']]),
    (.seqs [.cls false [.rng 'С' 'С', .rng 'с' 'с', .rng 'ᲃ' 'ᲃ'], .cls false [.rng 'Л' 'Л', .rng 'л' 'л'], .cls false [.rng 'Е' 'Е', .rng 'е' 'е'], .cls false [.rng 'Д' 'Д', .rng 'д' 'д', .rng 'ᲁ' 'ᲁ'], .lit [' '], .grp 1 (.number), .lit [' '], .cls false [.rng 'Д' 'Д', .rng 'д' 'д', .rng 'ᲁ' 'ᲁ'], .cls false [.rng 'Е' 'Е', .rng 'е' 'е'], .cls false [.rng 'Н' 'Н', .rng 'н' 'н']], [.lit ['i', 'n', ' '], .ref 1, .lit [' ', 'd', 'a', 'y']]),
    (.seqs [.cls false [.rng 'С' 'С', .rng 'с' 'с', .rng 'ᲃ' 'ᲃ'], .cls false [.rng 'Л' 'Л', .rng 'л' 'л'], .cls false [.rng 'Е' 'Е', .rng 'е' 'е'], .cls false [.rng 'Д' 'Д', .rng 'д' 'д', .rng 'ᲁ' 'ᲁ'], .lit [' '], .grp 1 (.number), .lit [' '], .cls false [.rng 'Д' 'Д', .rng 'д' 'д', .rng 'ᲁ' 'ᲁ'], .cls false [.rng 'Н' 'Н', .rng 'н' 'н'], .cls false [.rng 'И' 'И', .rng 'и' 'и']], [.lit ['i', 'n', ' '], .ref 1, .lit [' ', 'd', 'a', 'y']]),
    (.seqs [.cls false [.rng 'С' 'С', .rng 'с' 'с', .rng 'ᲃ' 'ᲃ'], .cls false [.rng 'Л' 'Л', .rng 'л' 'л'], .cls false [.rng 'Е' 'Е', .rng 'е' 'е'], .cls false [.rng 'Д' 'Д', .rng 'д' 'д', .rng 'ᲁ' 'ᲁ'], .lit [' '], .grp 1 (.number), .lit [' '], .cls false [.rng 'М' 'М', .rng 'м' 'м'], .cls false [.rng 'И' 'И', .rng 'и' 'и'], .cls false [.rng 'Н' 'Н', .rng 'н' 'н']], [.lit ['i', 'n', ' '], .ref 1, .lit [' ', 'm', 'i', 'n', 'u', 't', 'e']]),
    (.seqs [.cls false [.rng 'С' 'С', .rng 'с' 'с', .rng 'ᲃ' 'ᲃ'], .cls false [.rng 'Л' 'Л', .rng 'л' 'л'], .cls false [.rng 'Е' 'Е', .rng 'е' 'е'], .cls false [.rng 'Д' 'Д', .rng 'д' 'д', .rng 'ᲁ' 'ᲁ'], .lit [' '], .grp 1 (.number), .lit [' '], .cls false [.rng 'С' 'С', .rng 'с' 'с', .rng 'ᲃ' 'ᲃ'], .cls false [.rng 'Е' 'Е', .rng 'е' 'е'], .cls false [.rng 'К' 'К', .rng 'к' 'к']], [.lit ['i', 'n', ' '], .ref 1, .lit [' ', 's', 'e', 'c', 'o', 'n', 'd']]),
    (.seqs [.cls false [.rng 'С' 'С', .rng 'с' 'с', .rng 'ᲃ' 'ᲃ'], .cls false [.rng 'Л' 'Л', .rng 'л' 'л'], .cls false [.rng 'Е' 'Е', .rng 'е' 'е'], .cls false [.rng 'Д' 'Д', .rng 'д' 'д', .rng 'ᲁ' 'ᲁ'], .lit [' '], .grp 1 (.number), .lit [' '], .cls false [.rng 'Ч' 'Ч', .rng 'ч' 'ч'], .cls false [.rng 'А' 'А', .rng 'а' 'а'], .cls false [.rng 'С' 'С', .rng 'с' 'с', .rng 'ᲃ' 'ᲃ']], [.lit ['i', 'n', ' '], .ref 1, .lit [' ', 'h', 'o', 'u', 'r']]),
    (.seqs [.cls false [.rng 'П' 'П', .rng 'п' 'п'], .cls false [.rng 'Р' 'Р', .rng 'р' 'р'], .lit [' '], .grp 1 (.number), .lit [' '], .cls false [.rng 'С' 'С', .rng 'с' 'с', .rng 'ᲃ' 'ᲃ'], .cls false [.rng 'Е' 'Е', .rng 'е' 'е'], .cls false [.rng 'Д' 'Д', .rng 'д' 'д', .rng 'ᲁ' 'ᲁ'], .cls false [.rng 'М' 'М', .rng 'м' 'м']], [.ref 1, .lit [' ', 'w', 'e', 'e', 'k', ' ', 'a', 'g', 'o']]),
    (.seqs [.cls false [.rng 'П' 'П', .rng 'п' 'п'], .cls false [.rng 'Р' 'Р', .rng 'р' 'р'], .cls false [.rng 'Е' 'Е', .rng 'е' 'е'], .cls false [.rng 'Д' 'Д', .rng 'д' 'д', .rng 'ᲁ' 'ᲁ'], .cls false [.rng 'И' 'И', .rng 'и' 'и'], .lit [' '], .grp 1 (.number), .lit [' '], .cls false [.rng 'Г' 'Г', .rng 'г' 'г']], [.ref 1, .lit [' ', 'y', 'e', 'a', 'r', ' ', 'a', 'g', 'o']]),
    (.seqs [.cls false [.rng 'П' 'П', .rng 'п' 'п'], .cls false [.rng 'Р' 'Р', .rng 'р' 'р'], .cls false [.rng 'Е' 'Е', .rng 'е' 'е'], .cls false [.rng 'Д' 'Д', .rng 'д' 'д', .rng 'ᲁ' 'ᲁ'], .cls false [.rng 'И' 'И', .rng 'и' 'и'], .lit [' '], .grp 1 (.number), .lit [' '], .cls false [.rng 'М' 'М', .rng 'м' 'м']], [.ref 1, .lit [' ', 'm', 'o', 'n', 't', 'h', ' ', 'a', 'g', 'o']]),
    (.seqs [.cls false [.rng 'П' 'П', .rng 'п' 'п'], .cls false [.rng 'Р' 'Р', .rng 'р' 'р'], .cls false [.rng 'Е' 'Е', .rng 'е' 'е'], .cls false [.rng 'Д' 'Д', .rng 'д' 'д', .rng 'ᲁ' 'ᲁ'], .cls false [.rng 'И' 'И', .rng 'и' 'и'], .lit [' '], .grp 1 (.number), .lit [' '], .cls false [.rng 'Ч' 'Ч', .rng 'ч' 'ч']], [.ref 1, .lit [' ', 'h', 'o', 'u', 'r', ' ', 'a', 'g', 'o']]),
    (.seqs [.cls false [.rng 'С' 'С', .rng 'с' 'с', .rng 'ᲃ' 'ᲃ'], .cls false [.rng 'Л' 'Л', .rng 'л' 'л'], .lit [' '], .grp 1 (.number), .lit [' '], .cls false [.rng 'С' 'С', .rng 'с' 'с', .rng 'ᲃ' 'ᲃ'], .cls false [.rng 'Е' 'Е', .rng 'е' 'е'], .cls false [.rng 'Д' 'Д', .rng 'д' 'д', .rng 'ᲁ' 'ᲁ'], .cls false [.rng 'М' 'М', .rng 'м' 'м']], [.lit ['i', 'n', ' '], .ref 1, .lit [' ', 'w', 'e', 'e', 'k']]),
    (.seqs [.cls false [.rng 'П' 'П', .rng 'п' 'п'], .cls false [.rng 'Р' 'Р', .rng 'р' 'р'], .lit [' '], .grp 1 (.number), .lit [' '], .cls false [.rng 'М' 'М', .rng 'м' 'м'], .cls false [.rng 'И' 'И', .rng 'и' 'и'], .cls false [.rng 'Н' 'Н', .rng 'н' 'н']], [.ref 1, .lit [' ', 'm', 'i', 'n', 'u', 't', 'e', ' ', 'a', 'g', 'o']]),
    (.seqs [.cls false [.rng 'П' 'П', .rng 'п' 'п'], .cls false [.rng 'Р' 'Р', .rng 'р' 'р'], .lit [' '], .grp 1 (.number), .lit [' '], .cls false [.rng 'С' 'С', .rng 'с' 'с', .rng 'ᲃ' 'ᲃ'], .cls false [.rng 'Е' 'Е', .rng 'е' 'е'], .cls false [.rng 'К' 'К', .rng 'к' 'к']], [.ref 1, .lit [' ', 's', 'e', 'c', 'o', 'n', 'd', ' ', 'a', 'g', 'o']]),
    (.seqs [.cls false [.rng 'С' 'С', .rng 'с' 'с', .rng 'ᲃ' 'ᲃ'], .cls false [.rng 'Л' 'Л', .rng 'л' 'л'], .lit [' '], .grp 1 (.number), .lit [' '], .cls false [.rng 'М' 'М', .rng 'м' 'м'], .cls false [.rng 'И' 'И', .rng 'и' 'и'], .cls false [.rng 'Н' 'Н', .rng 'н' 'н']], [.lit ['i', 'n', ' '], .ref 1, .lit [' ', 'm', 'i', 'n', 'u', 't', 'e']]),
    (.seqs [.cls false [.rng 'С' 'С', .rng 'с' 'с', .rng 'ᲃ' 'ᲃ'], .cls false [.rng 'Л' 'Л', .rng 'л' 'л'], .lit [' '], .grp 1 (.number), .lit [' '], .cls false [.rng 'С' 'С', .rng 'с' 'с', .rng 'ᲃ' 'ᲃ'], .cls false [.rng 'Е' 'Е', .rng 'е' 'е'], .cls false [.rng 'К' 'К', .rng 'к' 'к']], [.lit ['i', 'n', ' '], .ref 1, .lit [' ', 's', 'e', 'c', 'o', 'n', 'd']]),
    (.seqs [.cls false [.rng 'С' 'С', .rng 'с' 'с', .rng 'ᲃ' 'ᲃ'], .cls false [.rng 'Л' 'Л', .rng 'л' 'л'], .cls false [.rng 'Е' 'Е', .rng 'е' 'е'], .cls false [.rng 'Д' 'Д', .rng 'д' 'д', .rng 'ᲁ' 'ᲁ'], .lit [' '], .grp 1 (.number), .lit [' '], .cls false [.rng 'Г' 'Г', .rng 'г' 'г']], [.lit ['i', 'n', ' '], .ref 1, .lit [' ', 'y', 'e', 'a', 'r']]),
    (.seqs [.cls false [.rng 'С' 'С', .rng 'с' 'с', .rng 'ᲃ' 'ᲃ'], .cls false [.rng 'Л' 'Л', .rng 'л' 'л'], .cls false [.rng 'Е' 'Е', .rng 'е' 'е'], .cls false [.rng 'Д' 'Д', .rng 'д' 'д', .rng 'ᲁ' 'ᲁ'], .lit [' '], .grp 1 (.number), .lit [' '], .cls false [.rng 'М' 'М', .rng 'м' 'м']], [.lit ['i', 'n', ' '], .ref 1, .lit [' ', 'm', 'o', 'n', 't', 'h']]),
    (.seqs [.cls false [.rng 'С' 'С', .rng 'с' 'с', .rng 'ᲃ' 'ᲃ'], .cls false [.rng 'Л' 'Л', .rng 'л' 'л'], .cls false [.rng 'Е' 'Е', .rng 'е' 'е'], .cls false [.rng 'Д' 'Д', .rng 'д' 'д', .rng 'ᲁ' 'ᲁ'], .lit [' '], .grp 1 (.number), .lit [' '], .cls false [.rng 'Ч' 'Ч', .rng 'ч' 'ч']], [.lit ['i', 'n', ' '], .ref 1, .lit [' ', 'h', 'o', 'u', 'r']]),
    (.seqs [.cls false [.rng 'П' 'П', .rng 'п' 'п'], .cls false [.rng 'Р' 'Р', .rng 'р' 'р'], .lit [' '], .grp 1 (.number), .lit [' '], .cls false [.rng 'Г' 'Г', .rng 'г' 'г']], [.ref 1, .lit [' ', 'y', 'e', 'a', 'r', ' ', 'a', 'g', 'o']]),
    (.seqs [.cls false [.rng 'П' 'П', .rng 'п' 'п'], .cls false [.rng 'Р' 'Р', .rng 'р' 'р'], .lit [' '], .grp 1 (.number), .lit [' '], .cls false [.rng 'Д' 'Д', .rng 'д' 'д', .rng 'ᲁ' 'ᲁ']], [.ref 1, .lit [' ', 'd', 'a', 'y', ' ', 'a', 'g', 'o']]),
    (.seqs [.cls false [.rng 'П' 'П', .rng 'п' 'п'], .cls false [.rng 'Р' 'Р', .rng 'р' 'р'], .lit [' '], .grp 1 (.number), .lit [' '], .cls false [.rng 'М' 'М', .rng 'м' 'м']], [.ref 1, .lit [' ', 'm', 'o', 'n', 't', 'h', ' ', 'a', 'g', 'o']]),
    (.seqs [.cls false [.rng 'П' 'П', .rng 'п' 'п'], .cls false [.rng 'Р' 'Р', .rng 'р' 'р'], .lit [' '], .grp 1 (.number), .lit [' '], .cls false [.rng 'Ч' 'Ч', .rng 'ч' 'ч']], [.ref 1, .lit [' ', 'h', 'o', 'u', 'r', ' ', 'a', 'g', 'o']]),
    (.seqs [.cls false [.rng 'С' 'С', .rng 'с' 'с', .rng 'ᲃ' 'ᲃ'], .cls false [.rng 'Л' 'Л', .rng 'л' 'л'], .lit [' '], .grp 1 (.number), .lit [' '], .cls false [.rng 'Г' 'Г', .rng 'г' 'г']], [.lit ['i', 'n', ' '], .ref 1, .lit [' ', 'y', 'e', 'a', 'r']]),
    (.seqs [.cls false [.rng 'С' 'С', .rng 'с' 'с', .rng 'ᲃ' 'ᲃ'], .cls false [.rng 'Л' 'Л', .rng 'л' 'л'], .lit [' '], .grp 1 (.number), .lit [' '], .cls false [.rng 'Д' 'Д', .rng 'д' 'д', .rng 'ᲁ' 'ᲁ']], [.lit ['i', 'n', ' '], .ref 1, .lit [' ', 'd', 'a', 'y']]),
    (.seqs [.cls false [.rng 'С' 'С', .rng 'с' 'с', .rng 'ᲃ' 'ᲃ'], .cls false [.rng 'Л' 'Л', .rng 'л' 'л'], .lit [' '], .grp 1 (.number), .lit [' '], .cls false [.rng 'М' 'М', .rng 'м' 'м']], [.lit ['i', 'n', ' '], .ref 1, .lit [' ', 'm', 'o', 'n', 't', 'h']]),
    (.seqs [.cls false [.rng 'С' 'С', .rng 'с' 'с', .rng 'ᲃ' 'ᲃ'], .cls false [.rng 'Л' 'Л', .rng 'л' 'л'], .lit [' '], .grp 1 (.number), .lit [' '], .cls false [.rng 'Ч' 'Ч', .rng 'ч' 'ч']], [.lit ['i', 'n', ' '], .ref 1, .lit [' ', 'h', 'o', 'u', 'r']])],
  rxCombined := some (.seqs [.grp 1 (.alts [.bos, .cls true [.letter, .mark, .digit], .lit ['_']]), .grp 2 (.alts [.seqs [.cls false [.rng 'П' 'П', .rng 'п' 'п'], .cls false [.rng 'Р' 'Р', .rng 'р' 'р'], .cls false [.rng 'Е' 'Е', .rng 'е' 'е'], .cls false [.rng 'Д' 'Д', .rng 'д' 'д', .rng 'ᲁ' 'ᲁ'], .cls false [.rng 'И' 'И', .rng 'и' 'и'], .lit [' '], .number, .lit [' '], .cls false [.rng 'С' 'С', .rng 'с' 'с', .rng 'ᲃ' 'ᲃ'], .cls false [.rng 'Е' 'Е', .rng 'е' 'е'], .cls false [.rng 'Д' 'Д', .rng 'д' 'д', .rng 'ᲁ' 'ᲁ'], .cls false [.rng 'М' 'М', .rng 'м' 'м'], .cls false [.rng 'И' 'И', .rng 'и' 'и'], .cls false [.rng 'Ц' 'Ц', .rng 'ц' 'ц'], .cls false [.rng 'А' 'А', .rng 'а' 'а']], .seqs [.cls false [.rng 'П' 'П', .rng 'п' 'п'], .cls false [.rng 'Р' 'Р', .rng 'р' 'р'], .cls false [.rng 'Е' 'Е', .rng 'е' 'е'], .cls false [.rng 'Д' 'Д', .rng 'д' 'д', .rng 'ᲁ' 'ᲁ'], .cls false [.rng 'И' 'И', .rng 'и' 'и'], .lit [' '], .number, .lit [' '], .cls false [.rng 'С' 'С', .rng 'с' 'с', .rng 'ᲃ' 'ᲃ'], .cls false [.rng 'Е' 'Е', .rng 'е' 'е'], .cls false [.rng 'Д' 'Д', .rng 'д' 'д', .rng 'ᲁ' 'ᲁ'], .cls false [.rng 'М' 'М', .rng 'м' 'м'], .cls false [.rng 'И' 'И', .rng 'и' 'и'], .cls false [.rng 'Ц' 'Ц', .rng 'ц' 'ц'], .cls false [.rng 'И' 'И', .rng 'и' 'и']], .seqs [.cls false [.rng 'П' 'П', .rng 'п' 'п'], .cls false [.rng 'Р' 'Р', .rng 'р' 'р'], .cls false [.rng 'Е' 'Е', .rng 'е' 'е'], .cls false [.rng 'Д' 'Д', .rng 'д' 'д', .rng 'ᲁ' 'ᲁ'], .cls false [.rng 'И' 'И', .rng 'и' 'и'], .lit [' '], .number, .lit [' '], .cls false [.rng 'С' 'С', .rng 'с' 'с', .rng 'ᲃ' 'ᲃ'], .cls false [.rng 'Е' 'Е', .rng 'е' 'е'], .cls false [.rng 'К' 'К', .rng 'к' 'к'], .cls false [.rng 'У' 'У', .rng 'у' 'у'], .cls false [.rng 'Н' 'Н', .rng 'н' 'н'], .cls false [.rng 'Д' 'Д', .rng 'д' 'д', .rng 'ᲁ' 'ᲁ'], .cls false [.rng 'А' 'А', .rng 'а' 'а']], .seqs [.cls false [.rng 'П' 'П', .rng 'п' 'п'], .cls false [.rng 'Р' 'Р', .rng 'р' 'р'], .cls false [.rng 'Е' 'Е', .rng 'е' 'е'], .cls false [.rng 'Д' 'Д', .rng 'д' 'д', .rng 'ᲁ' 'ᲁ'], .cls false [.rng 'И' 'И', .rng 'и' 'и'], .lit [' '], .number, .lit [' '], .cls false [.rng 'С' 'С', .rng 'с' 'с', .rng 'ᲃ' 'ᲃ'], .cls false [.rng 'Е' 'Е', .rng 'е' 'е'], .cls false [.rng 'К' 'К', .rng 'к' 'к'], .cls false [.rng 'У' 'У', .rng 'у' 'у'], .cls false [.rng 'Н' 'Н', .rng 'н' 'н'], .cls false [.rng 'Д' 'Д', .rng 'д' 'д', .rng 'ᲁ' 'ᲁ'], .cls false [.rng 'И' 'И', .rng 'и' 'и']], .seqs [.cls false [.rng 'П' 'П', .rng 'п' 'п'], .cls false [.rng 'Р' 'Р', .rng 'р' 'р'], .cls false [.rng 'Е' 'Е', .rng 'е' 'е'], .cls false [.rng 'Д' 'Д', .rng 'д' 'д', .rng 'ᲁ' 'ᲁ'], .cls false [.rng 'И' 'И', .rng 'и' 'и'], .lit [' '], .number, .lit [' '], .cls false [.rng 'Г' 'Г', .rng 'г' 'г'], .cls false [.rng 'О' 'О', .rng 'о' 'о', .rng 'ᲂ' 'ᲂ'], .cls false [.rng 'Д' 'Д', .rng 'д' 'д', .rng 'ᲁ' 'ᲁ'], .cls false [.rng 'И' 'И', .rng 'и' 'и'], .cls false [.rng 'Н' 'Н', .rng 'н' 'н'], .cls false [.rng 'А' 'А', .rng 'а' 'а']], .seqs [.cls false [.rng 'П' 'П', .rng 'п' 'п'], .cls false [.rng 'Р' 'Р', .rng 'р' 'р'], .cls false [.rng 'Е' 'Е', .rng 'е' 'е'], .cls false [.rng 'Д' 'Д', .rng 'д' 'д', .rng 'ᲁ' 'ᲁ'], .cls false [.rng 'И' 'И', .rng 'и' 'и'], .lit [' '], .number, .lit [' '], .cls false [.rng 'Г' 'Г', .rng 'г' 'г'], .cls false [.rng 'О' 'О', .rng 'о' 'о', .rng 'ᲂ' 'ᲂ'], .cls false [.rng 'Д' 'Д', .rng 'д' 'д', .rng 'ᲁ' 'ᲁ'], .cls false [.rng 'И' 'И', .rng 'и' 'и'], .cls false [.rng 'Н' 'Н', .rng 'н' 'н'], .cls false [.rng 'И' 'И', .rng 'и' 'и']], .seqs [.cls false [.rng 'П' 'П', .rng 'п' 'п'], .cls false [.rng 'Р' 'Р', .rng 'р' 'р'], .cls false [.rng 'Е' 'Е', .rng 'е' 'е'], .cls false [.rng 'Д' 'Д', .rng 'д' 'д', .rng 'ᲁ' 'ᲁ'], .cls false [.rng 'И' 'И', .rng 'и' 'и'], .lit [' '], .number, .lit [' '], .cls false [.rng 'М' 'М', .rng 'м' 'м'], .cls false [.rng 'Е' 'Е', .rng 'е' 'е'], .cls false [.rng 'С' 'С', .rng 'с' 'с', .rng 'ᲃ' 'ᲃ'], .cls false [.rng 'Е' 'Е', .rng 'е' 'е'], .cls false [.rng 'Ц' 'Ц', .rng 'ц' 'ц'], .cls false [.rng 'А' 'А', .rng 'а' 'а']], .seqs [.cls false [.rng 'П' 'П', .rng 'п' 'п'], .cls false [.rng 'Р' 'Р', .rng 'р' 'р'], .cls false [.rng 'Е' 'Е', .rng 'е' 'е'], .cls false [.rng 'Д' 'Д', .rng 'д' 'д', .rng 'ᲁ' 'ᲁ'], .cls false [.rng 'И' 'И', .rng 'и' 'и'], .lit [' '], .number, .lit [' '], .cls false [.rng 'М' 'М', .rng 'м' 'м'], .cls false [.rng 'И' 'И', .rng 'и' 'и'], .cls false [.rng 'Н' 'Н', .rng 'н' 'н'], .cls false [.rng 'У' 'У', .rng 'у' 'у'], .cls false [.rng 'Т' 'Т', .rng 'т' 'т', .rng 'ᲄ' 'ᲄ', .rng 'ᲅ' 'ᲅ'], .cls false [.rng 'А' 'А', .rng 'а' 'а']], .seqs [.cls false [.rng 'П' 'П', .rng 'п' 'п'], .cls false [.rng 'Р' 'Р', .rng 'р' 'р'], .cls false [.rng 'Е' 'Е', .rng 'е' 'е'], .cls false [.rng 'Д' 'Д', .rng 'д' 'д', .rng 'ᲁ' 'ᲁ'], .cls false [.rng 'И' 'И', .rng 'и' 'и'], .lit [' '], .number, .lit [' '], .cls false [.rng 'М' 'М', .rng 'м' 'м'], .cls false [.rng 'И' 'И', .rng 'и' 'и'], .cls false [.rng 'Н' 'Н', .rng 'н' 'н'], .cls false [.rng 'У' 'У', .rng 'у' 'у'], .cls false [.rng 'Т' 'Т', .rng 'т' 'т', .rng 'ᲄ' 'ᲄ', .rng 'ᲅ' 'ᲅ'], .cls false [.rng 'И' 'И', .rng 'и' 'и']], .seqs [.cls false [.rng 'С' 'С', .rng 'с' 'с', .rng 'ᲃ' 'ᲃ'], .cls false [.rng 'Л' 'Л', .rng 'л' 'л'], .cls false [.rng 'Е' 'Е', .rng 'е' 'е'], .cls false [.rng 'Д' 'Д', .rng 'д' 'д', .rng 'ᲁ' 'ᲁ'], .lit [' '], .number, .lit [' '], .cls false [.rng 'С' 'С', .rng 'с' 'с', .rng 'ᲃ' 'ᲃ'], .cls false [.rng 'Е' 'Е', .rng 'е' 'е'], .cls false [.rng 'Д' 'Д', .rng 'д' 'д', .rng 'ᲁ' 'ᲁ'], .cls false [.rng 'М' 'М', .rng 'м' 'м'], .cls false [.rng 'И' 'И', .rng 'и' 'и'], .cls false [.rng 'Ц' 'Ц', .rng 'ц' 'ц'], .cls false [.rng 'А' 'А', .rng 'а' 'а']], .seqs [.cls false [.rng 'С' 'С', .rng 'с' 'с', .rng 'ᲃ' 'ᲃ'], .cls false [.rng 'Л' 'Л', .rng 'л' 'л'], .cls false [.rng 'Е' 'Е', .rng 'е' 'е'], .cls false [.rng 'Д' 'Д', .rng 'д' 'д', .rng 'ᲁ' 'ᲁ'], .lit [' '], .number, .lit [' '], .cls false [.rng 'С' 'С', .rng 'с' 'с', .rng 'ᲃ' 'ᲃ'], .cls false [.rng 'Е' 'Е', .rng 'е' 'е'], .cls false [.rng 'Д' 'Д', .rng 'д' 'д', .rng 'ᲁ' 'ᲁ'], .cls false [.rng 'М' 'М', .rng 'м' 'м'], .cls false [.rng 'И' 'И', .rng 'и' 'и'], .cls false [.rng 'Ц' 'Ц', .rng 'ц' 'ц'], .cls false [.rng 'И' 'И', .rng 'и' 'и']], .seqs [.cls false [.rng 'С' 'С', .rng 'с' 'с', .rng 'ᲃ' 'ᲃ'], .cls false [.rng 'Л' 'Л', .rng 'л' 'л'], .cls false [.rng 'Е' 'Е', .rng 'е' 'е'], .cls false [.rng 'Д' 'Д', .rng 'д' 'д', .rng 'ᲁ' 'ᲁ'], .lit [' '], .number, .lit [' '], .cls false [.rng 'С' 'С', .rng 'с' 'с', .rng 'ᲃ' 'ᲃ'], .cls false [.rng 'Е' 'Е', .rng 'е' 'е'], .cls false [.rng 'К' 'К', .rng 'к' 'к'], .cls false [.rng 'У' 'У', .rng 'у' 'у'], .cls false [.rng 'Н' 'Н', .rng 'н' 'н'], .cls false [.rng 'Д' 'Д', .rng 'д' 'д', .rng 'ᲁ' 'ᲁ'], .cls false [.rng 'А' 'А', .rng 'а' 'а']], .seqs [.cls false [.rng 'С' 'С', .rng 'с' 'с', .rng 'ᲃ' 'ᲃ'], .cls false [.rng 'Л' 'Л', .rng 'л' 'л'], .cls false [.rng 'Е' 'Е', .rng 'е' 'е'], .cls false [.rng 'Д' 'Д', .rng 'д' 'д', .rng 'ᲁ' 'ᲁ'], .lit [' '], .number, .lit [' '], .cls false [.rng 'С' 'С', .rng 'с' 'с', .rng 'ᲃ' 'ᲃ'], .cls false [.rng 'Е' 'Е', .rng 'е' 'е'], .cls false [.rng 'К' 'К', .rng 'к' 'к'], .cls false [.rng 'У' 'У', .rng 'у' 'у'], .cls false [.rng 'Н' 'Н', .rng 'н' 'н'], .cls false [.rng 'Д' 'Д', .rng 'д' 'д', .rng 'ᲁ' 'ᲁ'], .cls false [.rng 'И' 'И', .rng 'и' 'и']], .seqs [.cls false [.rng 'П' 'П', .rng 'п' 'п'], .cls false [.rng 'Р' 'Р', .rng 'р' 'р'], .cls false [.rng 'Е' 'Е', .rng 'е' 'е'], .cls false [.rng 'Д' 'Д', .rng 'д' 'д', .rng 'ᲁ' 'ᲁ'], .cls false [.rng 'И' 'И', .rng 'и' 'и'], .lit [' '], .number, .lit [' '], .cls false [.rng 'М' 'М', .rng 'м' 'м'], .cls false [.rng 'Е' 'Е', .rng 'е' 'е'], .cls false [.rng 'С' 'С', .rng 'с' 'с', .rng 'ᲃ' 'ᲃ'], .cls false [.rng 'Е' 'Е', .rng 'е' 'е'], .cls false [.rng 'Ц' 'Ц', .rng 'ц' 'ц']], .seqs [.cls false [.rng 'С' 'С', .rng 'с' 'с', .rng 'ᲃ' 'ᲃ'], .cls false [.rng 'Л' 'Л', .rng 'л' 'л'], .cls false [.rng 'Е' 'Е', .rng 'е' 'е'], .cls false [.rng 'Д' 'Д', .rng 'д' 'д', .rng 'ᲁ' 'ᲁ'], .lit [' '], .number, .lit [' '], .cls false [.rng 'Г' 'Г', .rng 'г' 'г'], .cls false [.rng 'О' 'О', .rng 'о' 'о', .rng 'ᲂ' 'ᲂ'], .cls false [.rng 'Д' 'Д', .rng 'д' 'д', .rng 'ᲁ' 'ᲁ'], .cls false [.rng 'И' 'И', .rng 'и' 'и'], .cls false [.rng 'Н' 'Н', .rng 'н' 'н'], .cls false [.rng 'А' 'А', .rng 'а' 'а']], .seqs [.cls false [.rng 'С' 'С', .rng 'с' 'с', .rng 'ᲃ' 'ᲃ'], .cls false [.rng 'Л' 'Л', .rng 'л' 'л'], .cls false [.rng 'Е' 'Е', .rng 'е' 'е'], .cls false [.rng 'Д' 'Д', .rng 'д' 'д', .rng 'ᲁ' 'ᲁ'], .lit [' '], .number, .lit [' '], .cls false [.rng 'Г' 'Г', .rng 'г' 'г'], .cls false [.rng 'О' 'О', .rng 'о' 'о', .rng 'ᲂ' 'ᲂ'], .cls false [.rng 'Д' 'Д', .rng 'д' 'д', .rng 'ᲁ' 'ᲁ'], .cls false [.rng 'И' 'И', .rng 'и' 'и'], .cls false [.rng 'Н' 'Н', .rng 'н' 'н'], .cls false [.rng 'И' 'И', .rng 'и' 'и']], .seqs [.cls false [.rng 'С' 'С', .rng 'с' 'с', .rng 'ᲃ' 'ᲃ'], .cls false [.rng 'Л' 'Л', .rng 'л' 'л'], .cls false [.rng 'Е' 'Е', .rng 'е' 'е'], .cls false [.rng 'Д' 'Д', .rng 'д' 'д', .rng 'ᲁ' 'ᲁ'], .lit [' '], .number, .lit [' '], .cls false [.rng 'М' 'М', .rng 'м' 'м'], .cls false [.rng 'Е' 'Е', .rng 'е' 'е'], .cls false [.rng 'С' 'С', .rng 'с' 'с', .rng 'ᲃ' 'ᲃ'], .cls false [.rng 'Е' 'Е', .rng 'е' 'е'], .cls false [.rng 'Ц' 'Ц', .rng 'ц' 'ц'], .cls false [.rng 'А' 'А', .rng 'а' 'а']], .seqs [.cls false [.rng 'С' 'С', .rng 'с' 'с', .rng 'ᲃ' 'ᲃ'], .cls false [.rng 'Л' 'Л', .rng 'л' 'л'], .cls false [.rng 'Е' 'Е', .rng 'е' 'е'], .cls false [.rng 'Д' 'Д', .rng 'д' 'д', .rng 'ᲁ' 'ᲁ'], .lit [' '], .number, .lit [' '], .cls false [.rng 'М' 'М', .rng 'м' 'м'], .cls false [.rng 'И' 'И', .rng 'и' 'и'], .cls false [.rng 'Н' 'Н', .rng 'н' 'н'], .cls false [.rng 'У' 'У', .rng 'у' 'у'], .cls false [.rng 'Т' 'Т', .rng 'т' 'т', .rng 'ᲄ' 'ᲄ', .rng 'ᲅ' 'ᲅ'], .cls false [.rng 'А' 'А', .rng 'а' 'а']], .seqs [.cls false [.rng 'С' 'С', .rng 'с' 'с', .rng 'ᲃ' 'ᲃ'], .cls false [.rng 'Л' 'Л', .rng 'л' 'л'], .cls false [.rng 'Е' 'Е', .rng 'е' 'е'], .cls false [.rng 'Д' 'Д', .rng 'д' 'д', .rng 'ᲁ' 'ᲁ'], .lit [' '], .number, .lit [' '], .cls false [.rng 'М' 'М', .rng 'м' 'м'], .cls false [.rng 'И' 'И', .rng 'и' 'и'], .cls false [.rng 'Н' 'Н', .rng 'н' 'н'], .cls false [.rng 'У' 'У', .rng 'у' 'у'], .cls false [.rng 'Т' 'Т', .rng 'т' 'т', .rng 'ᲄ' 'ᲄ', .rng 'ᲅ' 'ᲅ'], .cls false [.rng 'И' 'И', .rng 'и' 'и']], .seqs [.cls false [.rng 'П' 'П', .rng 'п' 'п'], .cls false [.rng 'Р' 'Р', .rng 'р' 'р'], .cls false [.rng 'Е' 'Е', .rng 'е' 'е'], .cls false [.rng 'Д' 'Д', .rng 'д' 'д', .rng 'ᲁ' 'ᲁ'], .cls false [.rng 'И' 'И', .rng 'и' 'и'], .lit [' '], .number, .lit [' '], .cls false [.rng 'С' 'С', .rng 'с' 'с', .rng 'ᲃ' 'ᲃ'], .cls false [.rng 'Е' 'Е', .rng 'е' 'е'], .cls false [.rng 'Д' 'Д', .rng 'д' 'д', .rng 'ᲁ' 'ᲁ'], .cls false [.rng 'М' 'М', .rng 'м' 'м']], .seqs [.cls false [.rng 'П' 'П', .rng 'п' 'п'], .cls false [.rng 'Р' 'Р', .rng 'р' 'р'], .cls false [.rng 'Е' 'Е', .rng 'е' 'е'], .cls false [.rng 'Д' 'Д', .rng 'д' 'д', .rng 'ᲁ' 'ᲁ'], .cls false [.rng 'И' 'И', .rng 'и' 'и'], .lit [' '], .number, .lit [' '], .cls false [.rng 'Ч' 'Ч', .rng 'ч' 'ч'], .cls false [.rng 'А' 'А', .rng 'а' 'а'], .cls false [.rng 'С' 'С', .rng 'с' 'с', .rng 'ᲃ' 'ᲃ'], .cls false [.rng 'А' 'А', .rng 'а' 'а']], .seqs [.cls false [.rng 'С' 'С', .rng 'с' 'с', .rng 'ᲃ' 'ᲃ'], .cls false [.rng 'Л' 'Л', .rng 'л' 'л'], .cls false [.rng 'Е' 'Е', .rng 'е' 'е'], .cls false [.rng 'Д' 'Д', .rng 'д' 'д', .rng 'ᲁ' 'ᲁ'], .lit [' '], .number, .lit [' '], .cls false [.rng 'М' 'М', .rng 'м' 'м'], .cls false [.rng 'Е' 'Е', .rng 'е' 'е'], .cls false [.rng 'С' 'С', .rng 'с' 'с', .rng 'ᲃ' 'ᲃ'], .cls false [.rng 'Е' 'Е', .rng 'е' 'е'], .cls false [.rng 'Ц' 'Ц', .rng 'ц' 'ц']], .seqs [.cls false [.rng 'П' 'П', .rng 'п' 'п'], .cls false [.rng 'Р' 'Р', .rng 'р' 'р'], .cls false [.rng 'Е' 'Е', .rng 'е' 'е'], .cls false [.rng 'Д' 'Д', .rng 'д' 'д', .rng 'ᲁ' 'ᲁ'], .cls false [.rng 'И' 'И', .rng 'и' 'и'], .lit [' '], .number, .lit [' '], .cls false [.rng 'Д' 'Д', .rng 'д' 'д', .rng 'ᲁ' 'ᲁ'], .cls false [.rng 'Е' 'Е', .rng 'е' 'е'], .cls false [.rng 'Н' 'Н', .rng 'н' 'н']], .seqs [.cls false [.rng 'П' 'П', .rng 'п' 'п'], .cls false [.rng 'Р' 'Р', .rng 'р' 'р'], .cls false [.rng 'Е' 'Е', .rng 'е' 'е'], .cls false [.rng 'Д' 'Д', .rng 'д' 'д', .rng 'ᲁ' 'ᲁ'], .cls false [.rng 'И' 'И', .rng 'и' 'и'], .lit [' '], .number, .lit [' '], .cls false [.rng 'Д' 'Д', .rng 'д' 'д', .rng 'ᲁ' 'ᲁ'], .cls false [.rng 'Н' 'Н', .rng 'н' 'н'], .cls false [.rng 'И' 'И', .rng 'и' 'и']], .seqs [.cls false [.rng 'П' 'П', .rng 'п' 'п'], .cls false [.rng 'Р' 'Р', .rng 'р' 'р'], .cls false [.rng 'Е' 'Е', .rng 'е' 'е'], .cls false [.rng 'Д' 'Д', .rng 'д' 'д', .rng 'ᲁ' 'ᲁ'], .cls false [.rng 'И' 'И', .rng 'и' 'и'], .lit [' '], .number, .lit [' '], .cls false [.rng 'М' 'М', .rng 'м' 'м'], .cls false [.rng 'И' 'И', .rng 'и' 'и'], .cls false [.rng 'Н' 'Н', .rng 'н' 'н']], .seqs [.cls false [.rng 'П' 'П', .rng 'п' 'п'], .cls false [.rng 'Р' 'Р', .rng 'р' 'р'], .cls false [.rng 'Е' 'Е', .rng 'е' 'е'], .cls false [.rng 'Д' 'Д', .rng 'д' 'д', .rng 'ᲁ' 'ᲁ'], .cls false [.rng 'И' 'И', .rng 'и' 'и'], .lit [' '], .number, .lit [' '], .cls false [.rng 'С' 'С', .rng 'с' 'с', .rng 'ᲃ' 'ᲃ'], .cls false [.rng 'Е' 'Е', .rng 'е' 'е'], .cls false [.rng 'К' 'К', .rng 'к' 'к']], .seqs [.cls false [.rng 'П' 'П', .rng 'п' 'п'], .cls false [.rng 'Р' 'Р', .rng 'р' 'р'], .cls false [.rng 'Е' 'Е', .rng 'е' 'е'], .cls false [.rng 'Д' 'Д', .rng 'д' 'д', .rng 'ᲁ' 'ᲁ'], .cls false [.rng 'И' 'И', .rng 'и' 'и'], .lit [' '], .number, .lit [' '], .cls false [.rng 'Ч' 'Ч', .rng 'ч' 'ч'], .cls false [.rng 'А' 'А', .rng 'а' 'а'], .cls false [.rng 'С' 'С', .rng 'с' 'с', .rng 'ᲃ' 'ᲃ']], .seqs [.cls false [.rng 'С' 'С', .rng 'с' 'с', .rng 'ᲃ' 'ᲃ'], .cls false [.rng 'Л' 'Л', .rng 'л' 'л'], .cls false [.rng 'Е' 'Е', .rng 'е' 'е'], .cls false [.rng 'Д' 'Д', .rng 'д' 'д', .rng 'ᲁ' 'ᲁ'], .lit [' '], .number, .lit [' '], .cls false [.rng 'С' 'С', .rng 'с' 'с', .rng 'ᲃ' 'ᲃ'], .cls false [.rng 'Е' 'Е', .rng 'е' 'е'], .cls false [.rng 'Д' 'Д', .rng 'д' 'д', .rng 'ᲁ' 'ᲁ'], .cls false [.rng 'М' 'М', .rng 'м' 'м']], .seqs [.cls false [.rng 'С' 'С', .rng 'с' 'с', .rng 'ᲃ' 'ᲃ'], .cls false [.rng 'Л' 'Л', .rng 'л' 'л'], .cls false [.rng 'Е' 'Е', .rng 'е' 'е'], .cls false [.rng 'Д' 'Д', .rng 'д' 'д', .rng 'ᲁ' 'ᲁ'], .lit [' '], .number, .lit [' '], .cls false [.rng 'Ч' 'Ч', .rng 'ч' 'ч'], .cls false [.rng 'А' 'А', .rng 'а' 'а'], .cls false [.rng 'С' 'С', .rng 'с' 'с', .rng 'ᲃ' 'ᲃ'], .cls false [.rng 'А' 'А', .rng 'а' 'а']], .seqs [.cls false [.rng 'С' 'С', .rng 'с' 'с', .rng 'ᲃ' 'ᲃ'], .cls false [.rng 'Л' 'Л', .rng 'л' 'л'], .cls false [.rng 'Е' 'Е', .rng 'е' 'е'], .cls false [.rng 'Д' 'Д', .rng 'д' 'д', .rng 'ᲁ' 'ᲁ'], .lit [' '], .number, .lit [' '], .cls false [.rng 'Д' 'Д', .rng 'д' 'д', .rng 'ᲁ' 'ᲁ'], .cls false [.rng 'Е' 'Е', .rng 'е' 'е'], .cls false [.rng 'Н' 'Н', .rng 'н' 'н']], .seqs [.cls false [.rng 'С' 'С', .rng 'с' 'с', .rng 'ᲃ' 'ᲃ'], .cls false [.rng 'Л' 'Л', .rng 'л' 'л'], .cls false [.rng 'Е' 'Е', .rng 'е' 'е'], .cls false [.rng 'Д' 'Д', .rng 'д' 'д', .rng 'ᲁ' 'ᲁ'], .lit [' '], .number, .lit [' '], .cls false [.rng 'Д' 'Д', .rng 'д' 'д', .rng 'ᲁ' 'ᲁ'], .cls false [.rng 'Н' 'Н', .rng 'н' 'н'], .cls false [.rng 'И' 'И', .rng 'и' 'и']], .seqs [.cls false [.rng 'С' 'С', .rng 'с' 'с', .rng 'ᲃ' 'ᲃ'], .cls false [.rng 'Л' 'Л', .rng 'л' 'л'], .cls false [.rng 'Е' 'Е', .rng 'е' 'е'], .cls false [.rng 'Д' 'Д', .rng 'д' 'д', .rng 'ᲁ' 'ᲁ'], .lit [' '], .number, .lit [' '], .cls false [.rng 'М' 'М', .rng 'м' 'м'], .cls false [.rng 'И' 'И', .rng 'и' 'и'], .cls false [.rng 'Н' 'Н', .rng 'н' 'н']], .seqs [.cls false [.rng 'С' 'С', .rng 'с' 'с', .rng 'ᲃ' 'ᲃ'], .cls false [.rng 'Л' 'Л', .rng 'л' 'л'], .cls false [.rng 'Е' 'Е', .rng 'е' 'е'], .cls false [.rng 'Д' 'Д', .rng 'д' 'д', .rng 'ᲁ' 'ᲁ'], .lit [' '], .number, .lit [' '], .cls false [.rng 'С' 'С', .rng 'с' 'с', .rng 'ᲃ' 'ᲃ'], .cls false [.rng 'Е' 'Е', .rng 'е' 'е'], .cls false [.rng 'К' 'К', .rng 'к' 'к']], .seqs [.cls false [.rng 'С' 'С', .rng 'с' 'с', .rng 'ᲃ' 'ᲃ'], .cls false [.rng 'Л' 'Л', .rng 'л' 'л'], .cls false [.rng 'Е' 'Е', .rng 'е' 'е'], .cls false [.rng 'Д' 'Д', .rng 'д' 'д', .rng 'ᲁ' 'ᲁ'], .lit [' '], .number, .lit [' '], .cls false [.rng 'Ч' 'Ч', .rng 'ч' 'ч'], .cls false [.rng 'А' 'А', .rng 'а' 'а'], .cls false [.rng 'С' 'С', .rng 'с' 'с', .rng 'ᲃ' 'ᲃ']], .seqs [.cls false [.rng 'П' 'П', .rng 'п' 'п'], .cls false [.rng 'Р' 'Р', .rng 'р' 'р'], .lit [' '], .number, .lit [' '], .cls false [.rng 'С' 'С', .rng 'с' 'с', .rng 'ᲃ' 'ᲃ'], .cls false [.rng 'Е' 'Е', .rng 'е' 'е'], .cls false [.rng 'Д' 'Д', .rng 'д' 'д', .rng 'ᲁ' 'ᲁ'], .cls false [.rng 'М' 'М', .rng 'м' 'м']], .seqs [.cls false [.rng 'П' 'П', .rng 'п' 'п'], .cls false [.rng 'Р' 'Р', .rng 'р' 'р'], .cls false [.rng 'Е' 'Е', .rng 'е' 'е'], .cls false [.rng 'Д' 'Д', .rng 'д' 'д', .rng 'ᲁ' 'ᲁ'], .cls false [.rng 'И' 'И', .rng 'и' 'и'], .lit [' '], .number, .lit [' '], .cls false [.rng 'Г' 'Г', .rng 'г' 'г']], .seqs [.cls false [.rng 'П' 'П', .rng 'п' 'п'], .cls false [.rng 'Р' 'Р', .rng 'р' 'р'], .cls false [.rng 'Е' 'Е', .rng 'е' 'е'], .cls false [.rng 'Д' 'Д', .rng 'д' 'д', .rng 'ᲁ' 'ᲁ'], .cls false [.rng 'И' 'И', .rng 'и' 'и'], .lit [' '], .number, .lit [' '], .cls false [.rng 'М' 'М', .rng 'м' 'м']], .seqs [.cls false [.rng 'П' 'П', .rng 'п' 'п'], .cls false [.rng 'Р' 'Р', .rng 'р' 'р'], .cls false [.rng 'Е' 'Е', .rng 'е' 'е'], .cls false [.rng 'Д' 'Д', .rng 'д' 'д', .rng 'ᲁ' 'ᲁ'], .cls false [.rng 'И' 'И', .rng 'и' 'и'], .lit [' '], .number, .lit [' '], .cls false [.rng 'Ч' 'Ч', .rng 'ч' 'ч']], .seqs [.cls false [.rng 'С' 'С', .rng 'с' 'с', .rng 'ᲃ' 'ᲃ'], .cls false [.rng 'Л' 'Л', .rng 'л' 'л'], .lit [' '], .number, .lit [' '], .cls false [.rng 'С' 'С', .rng 'с' 'с', .rng 'ᲃ' 'ᲃ'], .cls false [.rng 'Е' 'Е', .rng 'е' 'е'], .cls false [.rng 'Д' 'Д', .rng 'д' 'д', .rng 'ᲁ' 'ᲁ'], .cls false [.rng 'М' 'М', .rng 'м' 'м']], .seqs [.cls false [.rng 'П' 'П', .rng 'п' 'п'], .cls false [.rng 'Р' 'Р', .rng 'р' 'р'], .lit [' '], .number, .lit [' '], .cls false [.rng 'М' 'М', .rng 'м' 'м'], .cls false [.rng 'И' 'И', .rng 'и' 'и'], .cls false [.rng 'Н' 'Н', .rng 'н' 'н']], .seqs [.cls false [.rng 'П' 'П', .rng 'п' 'п'], .cls false [.rng 'Р' 'Р', .rng 'р' 'р'], .lit [' '], .number, .lit [' '], .cls false [.rng 'С' 'С', .rng 'с' 'с', .rng 'ᲃ' 'ᲃ'], .cls false [.rng 'Е' 'Е', .rng 'е' 'е'], .cls false [.rng 'К' 'К', .rng 'к' 'к']], .seqs [.cls false [.rng 'С' 'С', .rng 'с' 'с', .rng 'ᲃ' 'ᲃ'], .cls false [.rng 'Л' 'Л', .rng 'л' 'л'], .lit [' '], .number, .lit [' '], .cls false [.rng 'М' 'М', .rng 'м' 'м'], .cls false [.rng 'И' 'И', .rng 'и' 'и'], .cls false [.rng 'Н' 'Н', .rng 'н' 'н']], .seqs [.cls false [.rng 'С' 'С', .rng 'с' 'с', .rng 'ᲃ' 'ᲃ'], .cls false [.rng 'Л' 'Л', .rng 'л' 'л'], .lit [' '], .number, .lit [' '], .cls false [.rng 'С' 'С', .rng 'с' 'с', .rng 'ᲃ' 'ᲃ'], .cls false [.rng 'Е' 'Е', .rng 'е' 'е'], .cls false [.rng 'К' 'К', .rng 'к' 'к']], .seqs [.cls false [.rng 'С' 'С', .rng 'с' 'с', .rng 'ᲃ' 'ᲃ'], .cls false [.rng 'Л' 'Л', .rng 'л' 'л'], .cls false [.rng 'Е' 'Е', .rng 'е' 'е'], .cls false [.rng 'Д' 'Д', .rng 'д' 'д', .rng 'ᲁ' 'ᲁ'], .lit [' '], .number, .lit [' '], .cls false [.rng 'Г' 'Г', .rng 'г' 'г']], .seqs [.cls false [.rng 'С' 'С', .rng 'с' 'с', .rng 'ᲃ' 'ᲃ'], .cls false [.rng 'Л' 'Л', .rng 'л' 'л'], .cls false [.rng 'Е' 'Е', .rng 'е' 'е'], .cls false [.rng 'Д' 'Д', .rng 'д' 'д', .rng 'ᲁ' 'ᲁ'], .lit [' '], .number, .lit [' '], .cls false [.rng 'М' 'М', .rng 'м' 'м']], .seqs [.cls false [.rng 'С' 'С', .rng 'с' 'с', .rng 'ᲃ' 'ᲃ'], .cls false [.rng 'Л' 'Л', .rng 'л' 'л'], .cls false [.rng 'Е' 'Е', .rng 'е' 'е'], .cls false [.rng 'Д' 'Д', .rng 'д' 'д', .rng 'ᲁ' 'ᲁ'], .lit [' '], .number, .lit [' '], .cls false [.rng 'Ч' 'Ч', .rng 'ч' 'ч']], .seqs [.cls false [.rng 'П' 'П', .rng 'п' 'п'], .cls false [.rng 'Р' 'Р', .rng 'р' 'р'], .lit [' '], .number, .lit [' '], .cls false [.rng 'Г' 'Г', .rng 'г' 'г']], .seqs [.cls false [.rng 'П' 'П', .rng 'п' 'п'], .cls false [.rng 'Р' 'Р', .rng 'р' 'р'], .lit [' '], .number, .lit [' '], .cls false [.rng 'Д' 'Д', .rng 'д' 'д', .rng 'ᲁ' 'ᲁ']], .seqs [.cls false [.rng 'П' 'П', .rng 'п' 'п'], .cls false [.rng 'Р' 'Р', .rng 'р' 'р'], .lit [' '], .number, .lit [' '], .cls false [.rng 'М' 'М', .rng 'м' 'м']], .seqs [.cls false [.rng 'П' 'П', .rng 'п' 'п'], .cls false [.rng 'Р' 'Р', .rng 'р' 'р'], .lit [' '], .number, .lit [' '], .cls false [.rng 'Ч' 'Ч', .rng 'ч' 'ч']], .seqs [.cls false [.rng 'С' 'С', .rng 'с' 'с', .rng 'ᲃ' 'ᲃ'], .cls false [.rng 'Л' 'Л', .rng 'л' 'л'], .lit [' '], .number, .lit [' '], .cls false [.rng 'Г' 'Г', .rng 'г' 'г']], .seqs [.cls false [.rng 'С' 'С', .rng 'с' 'с', .rng 'ᲃ' 'ᲃ'], .cls false [.rng 'Л' 'Л', .rng 'л' 'л'], .lit [' '], .number, .lit [' '], .cls false [.rng 'Д' 'Д', .rng 'д' 'д', .rng 'ᲁ' 'ᲁ']], .seqs [.cls false [.rng 'С' 'С', .rng 'с' 'с', .rng 'ᲃ' 'ᲃ'], .cls false [.rng 'Л' 'Л', .rng 'л' 'л'], .lit [' '], .number, .lit [' '], .cls false [.rng 'М' 'М', .rng 'м' 'м']], .seqs [.cls false [.rng 'С' 'С', .rng 'с' 'с', .rng 'ᲃ' 'ᲃ'], .cls false [.rng 'Л' 'Л', .rng 'л' 'л'], .lit [' '], .number, .lit [' '], .cls false [.rng 'Ч' 'Ч', .rng 'ч' 'ч']]]), .grp 3 (.alts [.eos, .cls true [.letter, .mark, .digit], .lit ['_']])], 3),
  rxExact := some (.seqs [.bos, .grp 1 (.alts [.seqs [.cls false [.rng 'П' 'П', .rng 'п' 'п'], .cls false [.rng 'Р' 'Р', .rng 'р' 'р'], .cls false [.rng 'Е' 'Е', .rng 'е' 'е'], .cls false [.rng 'Д' 'Д', .rng 'д' 'д', .rng 'ᲁ' 'ᲁ'], .cls false [.rng 'И' 'И', .rng 'и' 'и'], .lit [' '], .number, .lit [' '], .cls false [.rng 'С' 'С', .rng 'с' 'с', .rng 'ᲃ' 'ᲃ'], .cls false [.rng 'Е' 'Е', .rng 'е' 'е'], .cls false [.rng 'Д' 'Д', .rng 'д' 'д', .rng 'ᲁ' 'ᲁ'], .cls false [.rng 'М' 'М', .rng 'м' 'м'], .cls false [.rng 'И' 'И', .rng 'и' 'и'], .cls false [.rng 'Ц' 'Ц', .rng 'ц' 'ц'], .cls false [.rng 'А' 'А', .rng 'а' 'а']], .seqs [.cls false [.rng 'П' 'П', .rng 'п' 'п'], .cls false [.rng 'Р' 'Р', .rng 'р' 'р'], .cls false [.rng 'Е' 'Е', .rng 'е' 'е'], .cls false [.rng 'Д' 'Д', .rng 'д' 'д', .rng 'ᲁ' 'ᲁ'], .cls false [.rng 'И' 'И', .rng 'и' 'и'], .lit [' '], .number, .lit [' '], .cls false [.rng 'С' 'С', .rng 'с' 'с', .rng 'ᲃ' 'ᲃ'], .cls false [.rng 'Е' 'Е', .rng 'е' 'е'], .cls false [.rng 'Д' 'Д', .rng 'д' 'д', .rng 'ᲁ' 'ᲁ'], .cls false [.rng 'М' 'М', .rng 'м' 'м'], .cls false [.rng 'И' 'И', .rng 'и' 'и'], .cls false [.rng 'Ц' 'Ц', .rng 'ц' 'ц'], .cls false [.rng 'И' 'И', .rng 'и' 'и']], .seqs [.cls false [.rng 'П' 'П', .rng 'п' 'п'], .cls false [.rng 'Р' 'Р', .rng 'р' 'р'], .cls false [.rng 'Е' 'Е', .rng 'е' 'е'], .cls false [.rng 'Д' 'Д', .rng 'д' 'д', .rng 'ᲁ' 'ᲁ'], .cls false [.rng 'И' 'И', .rng 'и' 'и'], .lit [' '], .number, .lit [' '], .cls false [.rng 'С' 'С', .rng 'с' 'с', .rng 'ᲃ' 'ᲃ'], .cls false [.rng 'Е' 'Е', .rng 'е' 'е'], .cls false [.rng 'К' 'К', .rng 'к' 'к'], .cls false [.rng 'У' 'У', .rng 'у' 'у'], .cls false [.rng 'Н' 'Н', .rng 'н' 'н'], .cls false [.rng 'Д' 'Д', .rng 'д' 'д', .rng 'ᲁ' 'ᲁ'], .cls false [.rng 'А' 'А', .rng 'а' 'а']], .seqs [.cls false [.rng 'П' 'П', .rng 'п' 'п'], .cls false [.rng 'Р' 'Р', .rng 'р' 'р'], .cls false [.rng 'Е' 'Е', .rng 'е' 'е'], .cls false [.rng 'Д' 'Д', .rng 'д' 'д', .rng 'ᲁ' 'ᲁ'], .cls false [.rng 'И' 'И', .rng 'и' 'и'], .lit [' '], .number, .lit [' '], .cls false [.rng 'С' 'С', .rng 'с' 'с', .rng 'ᲃ' 'ᲃ'], .cls false [.rng 'Е' 'Е', .rng 'е' 'е'], .cls false [.rng 'К' 'К', .rng 'к' 'к'], .cls false [.rng 'У' 'У', .rng 'у' 'у'], .cls false [.rng 'Н' 'Н', .rng 'н' 'н'], .cls false [.rng 'Д' 'Д', .rng 'д' 'д', .rng 'ᲁ' 'ᲁ'], .cls false [.rng 'И' 'И', .rng 'и' 'и']], .seqs [.cls false [.rng 'П' 'П', .rng 'п' 'п'], .cls false [.rng 'Р' 'Р', .rng 'р' 'р'], .cls false [.rng 'Е' 'Е', .rng 'е' 'е'], .cls false [.rng 'Д' 'Д', .rng 'д' 'д', .rng 'ᲁ' 'ᲁ'], .cls false [.rng 'И' 'И', .rng 'и' 'и'], .lit [' '], .number, .lit [' '], .cls false [.rng 'Г' 'Г', .rng 'г' 'г'], .cls false [.rng 'О' 'О', .rng 'о' 'о', .rng 'ᲂ' 'ᲂ'], .cls false [.rng 'Д' 'Д', .rng 'д' 'д', .rng 'ᲁ' 'ᲁ'], .cls false [.rng 'И' 'И', .rng 'и' 'и'], .cls false [.rng 'Н' 'Н', .rng 'н' 'н'], .cls false [.rng 'А' 'А', .rng 'а' 'а']], .seqs [.cls false [.rng 'П' 'П', .rng 'п' 'п'], .cls false [.rng 'Р' 'Р', .rng 'р' 'р'], .cls false [.rng 'Е' 'Е', .rng 'е' 'е'], .cls false [.rng 'Д' 'Д', .rng 'д' 'д', .rng 'ᲁ' 'ᲁ'], .cls false [.rng 'И' 'И', .rng 'и' 'и'], .lit [' '], .number, .lit [' '], .cls false [.rng 'Г' 'Г', .rng 'г' 'г'], .cls false [.rng 'О' 'О', .rng 'о' 'о', .rng 'ᲂ' 'ᲂ'], .cls false [.rng 'Д' 'Д', .rng 'д' 'д', .rng 'ᲁ' 'ᲁ'], .cls false [.rng 'И' 'И', .rng 'и' 'и'], .cls false [.rng 'Н' 'Н', .rng 'н' 'н'], .cls false [.rng 'И' 'И', .rng 'и' 'и']], .seqs [.cls false [.rng 'П' 'П', .rng 'п' 'п'], .cls false [.rng 'Р' 'Р', .rng 'р' 'р'], .cls false [.rng 'Е' 'Е', .rng 'е' 'е'], .cls false [.rng 'Д' 'Д', .rng 'д' 'д', .rng 'ᲁ' 'ᲁ'], .cls false [.rng 'И' 'И', .rng 'и' 'и'], .lit [' '], .number, .lit [' '], .cls false [.rng 'М' 'М', .rng 'м' 'м'], .cls false [.rng 'Е' 'Е', .rng 'е' 'е'], .cls false [.rng 'С' 'С', .rng 'с' 'с', .rng 'ᲃ' 'ᲃ'], .cls false [.rng 'Е' 'Е', .rng 'е' 'е'], .cls false [.rng 'Ц' 'Ц', .rng 'ц' 'ц'], .cls false [.rng 'А' 'А', .rng 'а' 'а']], .seqs [.cls false [.rng 'П' 'П', .rng 'п' 'п'], .cls false [.rng 'Р' 'Р', .rng 'р' 'р'], .cls false [.rng 'Е' 'Е', .rng 'е' 'е'], .cls false [.rng 'Д' 'Д', .rng 'д' 'д', .rng 'ᲁ' 'ᲁ'], .cls false [.rng 'И' 'И', .rng 'и' 'и'], .lit [' '], .number, .lit [' '], .cls false [.rng 'М' 'М', .rng 'м' 'м'], .cls false [.rng 'И' 'И', .rng 'и' 'и'], .cls false [.rng 'Н' 'Н', .rng 'н' 'н'], .cls false [.rng 'У' 'У', .rng 'у' 'у'], .cls false [.rng 'Т' 'Т', .rng 'т' 'т', .rng 'ᲄ' 'ᲄ', .rng 'ᲅ' 'ᲅ'], .cls false [.rng 'А' 'А', .rng 'а' 'а']], .seqs [.cls false [.rng 'П' 'П', .rng 'п' 'п'], .cls false [.rng 'Р' 'Р', .rng 'р' 'р'], .cls false [.rng 'Е' 'Е', .rng 'е' 'е'], .cls false [.rng 'Д' 'Д', .rng 'д' 'д', .rng 'ᲁ' 'ᲁ'], .cls false [.rng 'И' 'И', .rng 'и' 'и'], .lit [' '], .number, .lit [' '], .cls false [.rng 'М' 'М', .rng 'м' 'м'], .cls false [.rng 'И' 'И', .rng 'и' 'и'], .cls false [.rng 'Н' 'Н', .rng 'н' 'н'], .cls false [.rng 'У' 'У', .rng 'у' 'у'], .cls false [.rng 'Т' 'Т', .rng 'т' 'т', .rng 'ᲄ' 'ᲄ', .rng 'ᲅ' 'ᲅ'], .cls false [.rng 'И' 'И', .rng 'и' 'и']], .seqs [.cls false [.rng 'С' 'С', .rng 'с' 'с', .rng 'ᲃ' 'ᲃ'], .cls false [.rng 'Л' 'Л', .rng 'л' 'л'], .cls false [.rng 'Е' 'Е', .rng 'е' 'е'], .cls false [.rng 'Д' 'Д', .rng 'д' 'д', .rng 'ᲁ' 'ᲁ'], .lit [' '], .number, .lit [' '], .cls false [.rng 'С' 'С', .rng 'с' 'с', .rng 'ᲃ' 'ᲃ'], .cls false [.rng 'Е' 'Е', .rng 'е' 'е'], .cls false [.rng 'Д' 'Д', .rng 'д' 'д', .rng 'ᲁ' 'ᲁ'], .cls false [.rng 'М' 'М', .rng 'м' 'м'], .cls false [.rng 'И' 'И', .rng 'и' 'и'], .cls false [.rng 'Ц' 'Ц', .rng 'ц' 'ц'], .cls false [.rng 'А' 'А', .rng 'а' 'а']], .seqs [.cls false [.rng 'С' 'С', .rng 'с' 'с', .rng 'ᲃ' 'ᲃ'], .cls false [.rng 'Л' 'Л', .rng 'л' 'л'], .cls false [.rng 'Е' 'Е', .rng 'е' 'е'], .cls false [.rng 'Д' 'Д', .rng 'д' 'д', .rng 'ᲁ' 'ᲁ'], .lit [' '], .number, .lit [' '], .cls false [.rng 'С' 'С', .rng 'с' 'с', .rng 'ᲃ' 'ᲃ'], .cls false [.rng 'Е' 'Е', .rng 'е' 'е'], .cls false [.rng 'Д' 'Д', .rng 'д' 'д', .rng 'ᲁ' 'ᲁ'], .cls false [.rng 'М' 'М', .rng 'м' 'м'], .cls false [.rng 'И' 'И', .rng 'и' 'и'], .cls false [.rng 'Ц' 'Ц', .rng 'ц' 'ц'], .cls false [.rng 'И' 'И', .rng 'и' 'и']], .seqs [.cls false [.rng 'С' 'С', .rng 'с' 'с', .rng 'ᲃ' 'ᲃ'], .cls false [.rng 'Л' 'Л', .rng 'л' 'л'], .cls false [.rng 'Е' 'Е', .rng 'е' 'е'], .cls false [.rng 'Д' 'Д', .rng 'д' 'д', .rng 'ᲁ' 'ᲁ'], .lit [' '], .number, .lit [' '], .cls false [.rng 'С' 'С', .rng 'с' 'с', .rng 'ᲃ' 'ᲃ'], .cls false [.rng 'Е' 'Е', .rng 'е' 'е'], .cls false [.rng 'К' 'К', .rng 'к' 'к'], .cls false [.rng 'У' 'У', .rng 'у' 'у'], .cls false [.rng 'Н' 'Н', .rng 'н' 'н'], .cls false [.rng 'Д' 'Д', .rng 'д' 'д', .rng 'ᲁ' 'ᲁ'], .cls false [.rng 'А' 'А', .rng 'а' 'а']], .seqs [.cls false [.rng 'С' 'С', .rng 'с' 'с', .rng 'ᲃ' 'ᲃ'], .cls false [.rng 'Л' 'Л', .rng 'л' 'л'], .cls false [.rng 'Е' 'Е', .rng 'е' 'е'], .cls false [.rng 'Д' 'Д', .rng 'д' 'д', .rng 'ᲁ' 'ᲁ'], .lit [' '], .number, .lit [' '], .cls false [.rng 'С' 'С', .rng 'с' 'с', .rng 'ᲃ' 'ᲃ'], .cls false [.rng 'Е' 'Е', .rng 'е' 'е'], .cls false [.rng 'К' 'К', .rng 'к' 'к'], .cls false [.rng 'У' 'У', .rng 'у' 'у'], .cls false [.rng 'Н' 'Н', .rng 'н' 'н'], .cls false [.rng 'Д' 'Д', .rng 'д' 'д', .rng 'ᲁ' 'ᲁ'], .cls false [.rng 'И' 'И', .rng 'и' 'и']], .seqs [.cls false [.rng 'П' 'П', .rng 'п' 'п'], .cls false [.rng 'Р' 'Р', .rng 'р' 'р'], .cls false [.rng 'Е' 'Е', .rng 'е' 'е'], .cls false [.rng 'Д' 'Д', .rng 'д' 'д', .rng 'ᲁ' 'ᲁ'], .cls false [.rng 'И' 'И', .rng 'и' 'и'], .lit [' '], .number, .lit [' '], .cls false [.rng 'М' 'М', .rng 'м' 'м'], .cls false [.rng 'Е' 'Е', .rng 'е' 'е'], .cls false [.rng 'С' 'С', .rng 'с' 'с', .rng 'ᲃ' 'ᲃ'], .cls false [.rng 'Е' 'Е', .rng 'е' 'е'], .cls false [.rng 'Ц' 'Ц', .rng 'ц' 'ц']], .seqs [.cls false [.rng 'С' 'С', .rng 'с' 'с', .rng 'ᲃ' 'ᲃ'], .cls false [.rng 'Л' 'Л', .rng 'л' 'л'], .cls false [.rng 'Е' 'Е', .rng 'е' 'е'], .cls false [.rng 'Д' 'Д', .rng 'д' 'д', .rng 'ᲁ' 'ᲁ'], .lit [' '], .number, .lit [' '], .cls false [.rng 'Г' 'Г', .rng 'г' 'г'], .cls false [.rng 'О' 'О', .rng 'о' 'о', .rng 'ᲂ' 'ᲂ'], .cls false [.rng 'Д' 'Д', .rng 'д' 'д', .rng 'ᲁ' 'ᲁ'], .cls false [.rng 'И' 'И', .rng 'и' 'и'], .cls false [.rng 'Н' 'Н', .rng 'н' 'н'], .cls false [.rng 'А' 'А', .rng 'а' 'а']], .seqs [.cls false [.rng 'С' 'С', .rng 'с' 'с', .rng 'ᲃ' 'ᲃ'], .cls false [.rng 'Л' 'Л', .rng 'л' 'л'], .cls false [.rng 'Е' 'Е', .rng 'е' 'е'], .cls false [.rng 'Д' 'Д', .rng 'д' 'д', .rng 'ᲁ' 'ᲁ'], .lit [' '], .number, .lit [' '], .cls false [.rng 'Г' 'Г', .rng 'г' 'г'], .cls false [.rng 'О' 'О', .rng 'о' 'о', .rng 'ᲂ' 'ᲂ'], .cls false [.rng 'Д' 'Д', .rng 'д' 'д', .rng 'ᲁ' 'ᲁ'], .cls false [.rng 'И' 'И', .rng 'и' 'и'], .cls false [.rng 'Н' 'Н', .rng 'н' 'н'], .cls false [.rng 'И' 'И', .rng 'и' 'и']], .seqs [.cls false [.rng 'С' 'С', .rng 'с' 'с', .rng 'ᲃ' 'ᲃ'], .cls false [.rng 'Л' 'Л', .rng 'л' 'л'], .cls false [.rng 'Е' 'Е', .rng 'е' 'е'], .cls false [.rng 'Д' 'Д', .rng 'д' 'д', .rng 'ᲁ' 'ᲁ'], .lit [' '], .number, .lit [' '], .cls false [.rng 'М' 'М', .rng 'м' 'м'], .cls false [.rng 'Е' 'Е', .rng 'е' 'е'], .cls false [.rng 'С' 'С', .rng 'с' 'с', .rng 'ᲃ' 'ᲃ'], .cls false [.rng 'Е' 'Е', .rng 'е' 'е'], .cls false [.rng 'Ц' 'Ц', .rng 'ц' 'ц'], .cls false [.rng 'А' 'А', .rng 'а' 'а']], .seqs [.cls false [.rng 'С' 'С', .rng 'с' 'с', .rng 'ᲃ' 'ᲃ'], .cls false [.rng 'Л' 'Л', .rng 'л' 'л'], .cls false [.rng 'Е' 'Е', .rng 'е' 'е'], .cls false [.rng 'Д' 'Д', .rng 'д' 'д', .rng 'ᲁ' 'ᲁ'], .lit [' '], .number, .lit [' '], .cls false [.rng 'М' 'М', .rng 'м' 'м'], .cls false [.rng 'И' 'И', .rng 'и' 'и'], .cls false [.rng 'Н' 'Н', .rng 'н' 'н'], .cls false [.rng 'У' 'У', .rng 'у' 'у'], .cls false [.rng 'Т' 'Т', .rng 'т' 'т', .rng 'ᲄ' 'ᲄ', .rng 'ᲅ' 'ᲅ'], .cls false [.rng 'А' 'А', .rng 'а' 'а']], .seqs [.cls false [.rng 'С' 'С', .rng 'с' 'с', .rng 'ᲃ' 'ᲃ'], .cls false [.rng 'Л' 'Л', .rng 'л' 'л'], .cls false [.rng 'Е' 'Е', .rng 'е' 'е'], .cls false [.rng 'Д' 'Д', .rng 'д' 'д', .rng 'ᲁ' 'ᲁ'], .lit [' '], .number, .lit [' '], .cls false [.rng 'М' 'М', .rng 'м' 'м'], .cls false [.rng 'И' 'И', .rng 'и' 'и'], .cls false [.rng 'Н' 'Н', .rng 'н' 'н'], .cls false [.rng 'У' 'У', .rng 'у' 'у'], .cls false [.rng 'Т' 'Т', .rng 'т' 'т', .rng 'ᲄ' 'ᲄ', .rng 'ᲅ' 'ᲅ'], .cls false [.rng 'И' 'И', .rng 'и' 'и']], .seqs [.cls false [.rng 'П' 'П', .rng 'п' 'п'], .cls false [.rng 'Р' 'Р', .rng 'р' 'р'], .cls false [.rng 'Е' 'Е', .rng 'е' 'е'], .cls false [.rng 'Д' 'Д', .rng 'д' 'д', .rng 'ᲁ' 'ᲁ'], .cls false [.rng 'И' 'И', .rng 'и' 'и'], .lit [' '], .number, .lit [' '], .cls false [.rng 'С' 'С', .rng 'с' 'с', .rng 'ᲃ' 'ᲃ'], .cls false [.rng 'Е' 'Е', .rng 'е' 'е'], .cls false [.rng 'Д' 'Д', .rng 'д' 'д', .rng 'ᲁ' 'ᲁ'], .cls false [.rng 'М' 'М', .rng 'м' 'м']], .seqs [.cls false [.rng 'П' 'П', .rng 'п' 'п'], .cls false [.rng 'Р' 'Р', .rng 'р' 'р'], .cls false [.rng 'Е' 'Е', .rng 'е' 'е'], .cls false [.rng 'Д' 'Д', .rng 'д' 'д', .rng 'ᲁ' 'ᲁ'], .cls false [.rng 'И' 'И', .rng 'и' 'и'], .lit [' '], .number, .lit [' '], .cls false [.rng 'Ч' 'Ч', .rng 'ч' 'ч'], .cls false [.rng 'А' 'А', .rng 'а' 'а'], .cls false [.rng 'С' 'С', .rng 'с' 'с', .rng 'ᲃ' 'ᲃ'], .cls false [.rng 'А' 'А', .rng 'а' 'а']], .seqs [.cls false [.rng 'С' 'С', .rng 'с' 'с', .rng 'ᲃ' 'ᲃ'], .cls false [.rng 'Л' 'Л', .rng 'л' 'л'], .cls false [.rng 'Е' 'Е', .rng 'е' 'е'], .cls false [.rng 'Д' 'Д', .rng 'д' 'д', .rng 'ᲁ' 'ᲁ'], .lit [' '], .number, .lit [' '], .cls false [.rng 'М' 'М', .rng 'м' 'м'], .cls false [.rng 'Е' 'Е', .rng 'е' 'е'], .cls false [.rng 'С' 'С', .rng 'с' 'с', .rng 'ᲃ' 'ᲃ'], .cls false [.rng 'Е' 'Е', .rng 'е' 'е'], .cls false [.rng 'Ц' 'Ц', .rng 'ц' 'ц']], .seqs [.cls false [.rng 'П' 'П', .rng 'п' 'п'], .cls false [.rng 'Р' 'Р', .rng 'р' 'р'], .cls false [.rng 'Е' 'Е', .rng 'е' 'е'], .cls false [.rng 'Д' 'Д', .rng 'д' 'д', .rng 'ᲁ' 'ᲁ'], .cls false [.rng 'И' 'И', .rng 'и' 'и'], .lit [' '], .number, .lit [' '], .cls false [.rng 'Д' 'Д', .rng 'д' 'д', .rng 'ᲁ' 'ᲁ'], .cls false [.rng 'Е' 'Е', .rng 'е' 'е'], .cls false [.rng 'Н' 'Н', .rng 'н' 'н']], .seqs [.cls false [.rng 'П' 'П', .rng 'п' 'п'], .cls false [.rng 'Р' 'Р', .rng 'р' 'р'], .cls false [.rng 'Е' 'Е', .rng 'е' 'е'], .cls false [.rng 'Д' 'Д', .rng 'д' 'д', .rng 'ᲁ' 'ᲁ'], .cls false [.rng 'И' 'И', .rng 'и' 'и'], .lit [' '], .number, .lit [' '], .cls false [.rng 'Д' 'Д', .rng 'д' 'д', .rng 'ᲁ' 'ᲁ'], .cls false [.rng 'Н' 'Н', .rng 'н' 'н'], .cls false [.rng 'И' 'И', .rng 'и' 'и']], .seqs [.cls false [.rng 'П' 'П', .rng 'п' 'п'], .cls false [.rng 'Р' 'Р', .rng 'р' 'р'], .cls false [.rng 'Е' 'Е', .rng 'е' 'е'], .cls false [.rng 'Д' 'Д', .rng 'д' 'д', .rng 'ᲁ' 'ᲁ'], .cls false [.rng 'И' 'И', .rng 'и' 'и'], .lit [' '], .number, .lit [' '], .cls false [.rng 'М' 'М', .rng 'м' 'м'], .cls false [.rng 'И' 'И', .rng 'и' 'и'], .cls false [.rng 'Н' 'Н', .rng 'н' 'н']], .seqs [.cls false [.rng 'П' 'П', .rng 'п' 'п'], .cls false [.rng 'Р' 'Р', .rng 'р' 'р'], .cls false [.rng 'Е' 'Е', .rng 'е' 'е'], .cls false [.rng 'Д' 'Д', .rng 'д' 'д', .rng 'ᲁ' 'ᲁ'], .cls false [.rng 'И' 'И', .rng 'и' 'и'], .lit [' '], .number, .lit [' '], .cls false [.rng 'С' 'С', .rng 'с' 'с', .rng 'ᲃ' 'ᲃ'], .cls false [.rng 'Е' 'Е', .rng 'е' 'е'], .cls false [.rng 'К' 'К', .rng 'к' 'к']], .seqs [.cls false [.rng 'П' 'П', .rng 'п' 'п'], .cls false [.rng 'Р' 'Р', .rng 'р' 'р'], .cls false [.rng 'Е' 'Е', .rng 'е' 'е'], .cls false [.rng 'Д' 'Д', .rng 'д' 'д', .rng 'ᲁ' 'ᲁ'], .cls false [.rng 'И' 'И', .rng 'и' 'и'], .lit [' '], .number, .lit [' '], .cls false [.rng 'Ч' 'Ч', .rng 'ч' 'ч'], .cls false [.rng 'А' 'А', .rng 'а' 'а'], .cls false [.rng 'С' 'С', .rng 'с' 'с', .rng 'ᲃ' 'ᲃ']], .seqs [.cls false [.rng 'С' 'С', .rng 'с' 'с', .rng 'ᲃ' 'ᲃ'], .cls false [.rng 'Л' 'Л', .rng 'л' 'л'], .cls false [.rng 'Е' 'Е', .rng 'е' 'е'], .cls false [.rng 'Д' 'Д', .rng 'д' 'д', .rng 'ᲁ' 'ᲁ'], .lit [' '], .number, .lit [' '], .cls false [.rng 'С' 'С', .rng 'с' 'с', .rng 'ᲃ' 'ᲃ'], .cls false [.rng 'Е' 'Е', .rng 'е' 'е'], .cls false [.rng 'Д' 'Д', .rng 'д' 'д', .rng 'ᲁ' 'ᲁ'], .cls false [.rng 'М' 'М', .rng 'м' 'м']], .seqs [.cls false [.rng 'С' 'С', .rng 'с' 'с', .rng 'ᲃ' 'ᲃ'], .cls false [.rng 'Л' 'Л', .rng 'л' 'л'], .cls false [.rng 'Е' 'Е', .rng 'е' 'е'], .cls false [.rng 'Д' 'Д', .rng 'д' 'д', .rng 'ᲁ' 'ᲁ'], .lit [' '], .number, .lit [' '], .cls false [.rng 'Ч' 'Ч', .rng 'ч' 'ч'], .cls false [.rng 'А' 'А', .rng 'а' 'а'], .cls false [.rng 'С' 'С', .rng 'с' 'с', .rng 'ᲃ' 'ᲃ'], .cls false [.rng 'А' 'А', .rng 'а' 'а']], .seqs [.cls false [.rng 'С' 'С', .rng 'с' 'с', .rng 'ᲃ' 'ᲃ'], .cls false [.rng 'Л' 'Л', .rng 'л' 'л'], .cls false [.rng 'Е' 'Е', .rng 'е' 'е'], .cls false [.rng 'Д' 'Д', .rng 'д' 'д', .rng 'ᲁ' 'ᲁ'], .lit [' '], .number, .lit [' '], .cls false [.rng 'Д' 'Д', .rng 'д' 'д', .rng 'ᲁ' 'ᲁ'], .cls false [.rng 'Е' 'Е', .rng 'е' 'е'], .cls false [.rng 'Н' 'Н', .rng 'н' 'н']], .seqs [.cls false [.rng 'С' 'С', .rng 'с' 'с', .rng 'ᲃ' 'ᲃ'], .cls false [.rng 'Л' 'Л', .rng 'л' 'л'], .cls false [.rng 'Е' 'Е', .rng 'е' 'е'], .cls false [.rng 'Д' 'Д', .rng 'д' 'д', .rng 'ᲁ' 'ᲁ'], .lit [' '], .number, .lit [' '], .cls false [.rng 'Д' 'Д', .rng 'д' 'д', .rng 'ᲁ' 'ᲁ'], .cls false [.rng 'Н' 'Н', .rng 'н' 'н'], .cls false [.rng 'И' 'И', .rng 'и' 'и']], .seqs [.cls false [.rng 'С' 'С', .rng 'с' 'с', .rng 'ᲃ' 'ᲃ'], .cls false [.rng 'Л' 'Л', .rng 'л' 'л'], .cls false [.rng 'Е' 'Е', .rng 'е' 'е'], .cls false [.rng 'Д' 'Д', .rng 'д' 'д', .rng 'ᲁ' 'ᲁ'], .lit [' '], .number, .lit [' '], .cls false [.rng 'М' 'М', .rng 'м' 'м'], .cls false [.rng 'И' 'И', .rng 'и' 'и'], .cls false [.rng 'Н' 'Н', .rng 'н' 'н']], .seqs [.cls false [.rng 'С' 'С', .rng 'с' 'с', .rng 'ᲃ' 'ᲃ'], .cls false [.rng 'Л' 'Л', .rng 'л' 'л'], .cls false [.rng 'Е' 'Е', .rng 'е' 'е'], .cls false [.rng 'Д' 'Д', .rng 'д' 'д', .rng 'ᲁ' 'ᲁ'], .lit [' '], .number, .lit [' '], .cls false [.rng 'С' 'С', .rng 'с' 'с', .rng 'ᲃ' 'ᲃ'], .cls false [.rng 'Е' 'Е', .rng 'е' 'е'], .cls false [.rng 'К' 'К', .rng 'к' 'к']], .seqs [.cls false [.rng 'С' 'С', .rng 'с' 'с', .rng 'ᲃ' 'ᲃ'], .cls false [.rng 'Л' 'Л', .rng 'л' 'л'], .cls false [.rng 'Е' 'Е', .rng 'е' 'е'], .cls false [.rng 'Д' 'Д', .rng 'д' 'д', .rng 'ᲁ' 'ᲁ'], .lit [' '], .number, .lit [' '], .cls false [.rng 'Ч' 'Ч', .rng 'ч' 'ч'], .cls false [.rng 'А' 'А', .rng 'а' 'а'], .cls false [.rng 'С' 'С', .rng 'с' 'с', .rng 'ᲃ' 'ᲃ']], .seqs [.cls false [.rng 'П' 'П', .rng 'п' 'п'], .cls false [.rng 'Р' 'Р', .rng 'р' 'р'], .lit [' '], .number, .lit [' '], .cls false [.rng 'С' 'С', .rng 'с' 'с', .rng 'ᲃ' 'ᲃ'], .cls false [.rng 'Е' 'Е', .rng 'е' 'е'], .cls false [.rng 'Д' 'Д', .rng 'д' 'д', .rng 'ᲁ' 'ᲁ'], .cls false [.rng 'М' 'М', .rng 'м' 'м']], .seqs [.cls false [.rng 'П' 'П', .rng 'п' 'п'], .cls false [.rng 'Р' 'Р', .rng 'р' 'р'], .cls false [.rng 'Е' 'Е', .rng 'е' 'е'], .cls false [.rng 'Д' 'Д', .rng 'д' 'д', .rng 'ᲁ' 'ᲁ'], .cls false [.rng 'И' 'И', .rng 'и' 'и'], .lit [' '], .number, .lit [' '], .cls false [.rng 'Г' 'Г', .rng 'г' 'г']], .seqs [.cls false [.rng 'П' 'П', .rng 'п' 'п'], .cls false [.rng 'Р' 'Р', .rng 'р' 'р'], .cls false [.rng 'Е' 'Е', .rng 'е' 'е'], .cls false [.rng 'Д' 'Д', .rng 'д' 'д', .rng 'ᲁ' 'ᲁ'], .cls false [.rng 'И' 'И', .rng 'и' 'и'], .lit [' '], .number, .lit [' '], .cls false [.rng 'М' 'М', .rng 'м' 'м']], .seqs [.cls false [.rng 'П' 'П', .rng 'п' 'п'], .cls false [.rng 'Р' 'Р', .rng 'р' 'р'], .cls false [.rng 'Е' 'Е', .rng 'е' 'е'], .cls false [.rng 'Д' 'Д', .rng 'д' 'д', .rng 'ᲁ' 'ᲁ'], .cls false [.rng 'И' 'И', .rng 'и' 'и'], .lit [' '], .number, .lit [' '], .cls false [.rng 'Ч' 'Ч', .rng 'ч' 'ч']], .seqs [.cls false [.rng 'С' 'С', .rng 'с' 'с', .rng 'ᲃ' 'ᲃ'], .cls false [.rng 'Л' 'Л', .rng 'л' 'л'], .lit [' '], .number, .lit [' '], .cls false [.rng 'С' 'С', .rng 'с' 'с', .rng 'ᲃ' 'ᲃ'], .cls false [.rng 'Е' 'Е', .rng 'е' 'е'], .cls false [.rng 'Д' 'Д', .rng 'д' 'д', .rng 'ᲁ' 'ᲁ'], .cls false [.rng 'М' 'М', .rng 'м' 'м']], .seqs [.cls false [.rng 'П' 'П', .rng 'п' 'п'], .cls false [.rng 'Р' 'Р', .rng 'р' 'р'], .lit [' '], .number, .lit [' '], .cls false [.rng 'М' 'М', .rng 'м' 'м'], .cls false [.rng 'И' 'И', .rng 'и' 'и'], .cls false [.rng 'Н' 'Н', .rng 'н' 'н']], .seqs [.cls false [.rng 'П' 'П', .rng 'п' 'п'], .cls false [.rng 'Р' 'Р', .rng 'р' 'р'], .lit [' '], .number, .lit [' '], .cls false [.rng 'С' 'С', .rng 'с' 'с', .rng 'ᲃ' 'ᲃ'], .cls false [.rng 'Е' 'Е', .rng 'е' 'е'], .cls false [.rng 'К' 'К', .rng 'к' 'к']], .seqs [.cls false [.rng 'С' 'С', .rng 'с' 'с', .rng 'ᲃ' 'ᲃ'], .cls false [.rng 'Л' 'Л', .rng 'л' 'л'], .lit [' '], .number, .lit [' '], .cls false [.rng 'М' 'М', .rng 'м' 'м'], .cls false [.rng 'И' 'И', .rng 'и' 'и'], .cls false [.rng 'Н' 'Н', .rng 'н' 'н']], .seqs [.cls false [.rng 'С' 'С', .rng 'с' 'с', .rng 'ᲃ' 'ᲃ'], .cls false [.rng 'Л' 'Л', .rng 'л' 'л'], .lit [' '], .number, .lit [' '], .cls false [.rng 'С' 'С', .rng 'с' 'с', .rng 'ᲃ' 'ᲃ'], .cls false [.rng 'Е' 'Е', .rng 'е' 'е'], .cls false [.rng 'К' 'К', .rng 'к' 'к']], .seqs [.cls false [.rng 'С' 'С', .rng 'с' 'с', .rng 'ᲃ' 'ᲃ'], .cls false [.rng 'Л' 'Л', .rng 'л' 'л'], .cls false [.rng 'Е' 'Е', .rng 'е' 'е'], .cls false [.rng 'Д' 'Д', .rng 'д' 'д', .rng 'ᲁ' 'ᲁ'], .lit [' '], .number, .lit [' '], .cls false [.rng 'Г' 'Г', .rng 'г' 'г']], .seqs [.cls false [.rng 'С' 'С', .rng 'с' 'с', .rng 'ᲃ' 'ᲃ'], .cls false [.rng 'Л' 'Л', .rng 'л' 'л'], .cls false [.rng 'Е' 'Е', .rng 'е' 'е'], .cls false [.rng 'Д' 'Д', .rng 'д' 'д', .rng 'ᲁ' 'ᲁ'], .lit [' '], .number, .lit [' '], .cls false [.rng 'М' 'М', .rng 'м' 'м']], .seqs [.cls false [.rng 'С' 'С', .rng 'с' 'с', .rng 'ᲃ' 'ᲃ'], .cls false [.rng 'Л' 'Л', .rng 'л' 'л'], .cls false [.rng 'Е' 'Е', .rng 'е' 'е'], .cls false [.rng 'Д' 'Д', .rng 'д' 'д', .rng 'ᲁ' 'ᲁ'], .lit [' '], .number, .lit [' '], .cls false [.rng 'Ч' 'Ч', .rng 'ч' 'ч']], .seqs [.cls false [.rng 'П' 'П', .rng 'п' 'п'], .cls false [.rng 'Р' 'Р', .rng 'р' 'р'], .lit [' '], .number, .lit [' '], .cls false [.rng 'Г' 'Г', .rng 'г' 'г']], .seqs [.cls false [.rng 'П' 'П', .rng 'п' 'п'], .cls false [.rng 'Р' 'Р', .rng 'р' 'р'], .lit [' '], .number, .lit [' '], .cls false [.rng 'Д' 'Д', .rng 'д' 'д', .rng 'ᲁ' 'ᲁ']], .seqs [.cls false [.rng 'П' 'П', .rng 'п' 'п'], .cls false [.rng 'Р' 'Р', .rng 'р' 'р'], .lit [' '], .number, .lit [' '], .cls false [.rng 'М' 'М', .rng 'м' 'м']], .seqs [.cls false [.rng 'П' 'П', .rng 'п' 'п'], .cls false [.rng 'Р' 'Р', .rng 'р' 'р'], .lit [' '], .number, .lit [' '], .cls false [.rng 'Ч' 'Ч', .rng 'ч' 'ч']], .seqs [.cls false [.rng 'С' 'С', .rng 'с' 'с', .rng 'ᲃ' 'ᲃ'], .cls false [.rng 'Л' 'Л', .rng 'л' 'л'], .lit [' '], .number, .lit [' '], .cls false [.rng 'Г' 'Г', .rng 'г' 'г']], .seqs [.cls false [.rng 'С' 'С', .rng 'с' 'с', .rng 'ᲃ' 'ᲃ'], .cls false [.rng 'Л' 'Л', .rng 'л' 'л'], .lit [' '], .number, .lit [' '], .cls false [.rng 'Д' 'Д', .rng 'д' 'д', .rng 'ᲁ' 'ᲁ']], .seqs [.cls false [.rng 'С' 'С', .rng 'с' 'с', .rng 'ᲃ' 'ᲃ'], .cls false [.rng 'Л' 'Л', .rng 'л' 'л'], .lit [' '], .number, .lit [' '], .cls false [.rng 'М' 'М', .rng 'м' 'м']], .seqs [.cls false [.rng 'С' 'С', .rng 'с' 'с', .rng 'ᲃ' 'ᲃ'], .cls false [.rng 'Л' 'Л', .rng 'л' 'л'], .lit [' '], .number, .lit [' '], .cls false [.rng 'Ч' 'Ч', .rng 'ч' 'ч']]]), .eos]),
  knownWords :=
   [['п', 'р', 'е', 'д', 'х', 'о', 'д', 'н', 'а', 'т', 'а', ' ', 'с', 'е', 'д', 'м', 'и', 'ц', 'а'], ['с', 'л', 'е', 'д', ' ', '1', ' ', 'д', 'е', 'с', 'е', 'т', 'и', 'л', 'е', 'т', 'и', 'е'], ['с', 'л', 'е', 'д', 'в', 'а', 'щ', 'а', 'т', 'а', ' ', 'с', 'е', 'д', 'м', 'и', 'ц', 'а'], ['п', 'р', 'е', 'д', 'и', ' ', 'д', 'е', 'с', 'е', 'т', 'и', 'л', 'е', 'т', 'и', 'е'], ['с', 'л', 'е', 'д', 'в', 'а', 'щ', 'а', 'т', 'а', ' ', 'г', 'о', 'д', 'и', 'н', 'а'], ['м', 'и', 'н', 'а', 'л', 'а', 'т', 'а', ' ', 'с', 'е', 'д', 'м', 'и', 'ц', 'а'], ['м', 'и', 'н', 'а', 'л', 'а', 'т', 'а', ' ', 'г', 'о', 'д', 'и', 'н', 'а'], ['п', 'р', 'е', 'д', 'х', 'о', 'д', 'е', 'н', ' ', 'м', 'е', 'с', 'е', 'ц'], ['в', ' ', 'т', 'а', 'з', 'и', ' ', 'м', 'и', 'н', 'у', 'т', 'а'], ['п', 'р', 'е', 'д', 'и', ' ', 'с', 'е', 'д', 'м', 'и', 'ц', 'а'], ['с', 'л', 'е', 'д', 'в', 'а', 'щ', ' ', 'м', 'е', 'с', 'е', 'ц'], ['п', 'р', 'е', 'д', 'и', ' ', 'г', 'о', 'д', 'и', 'н', 'а'], ['т', 'а', 'з', 'и', ' ', 'с', 'е', 'д', 'м', 'и', 'ц', 'а'], ['т', 'а', 'з', 'и', ' ', 'г', 'о', 'д', 'и', 'н', 'а'], ['в', ' ', 'т', 'о', 'з', 'и', ' ', 'ч', 'а', 'с'], ['п', 'о', 'н', 'е', 'д', 'е', 'л', 'н', 'и', 'к'], ['с', 'л', 'е', 'д', 'в', ' ', 'с', 'е', 'д', 'м'], ['т', 'о', 'з', 'и', ' ', 'м', 'е', 'с', 'е', 'ц'], ['в', 'д', 'р', 'у', 'г', 'и', 'д', 'е', 'н'], ['п', 'р', 'е', 'д', 'и', ' ', 'д', 'е', 'н'], ['п', 'р', 'е', 'д', 'и', ' ', 'ч', 'а', 'с'], ['с', 'е', 'п', 'т', 'е', 'м', 'в', 'р', 'и'], ['с', 'л', 'е', 'д', 'в', ' ', 'м', 'е', 'с'], ['т', 'а', 'з', 'и', ' ', 'с', 'е', 'д', 'м'], ['ч', 'е', 'т', 'в', 'ъ', 'р', 'т', 'ъ', 'к'], ['д', 'е', 'к', 'е', 'м', 'в', 'р', 'и'], ['м', 'и', 'н', ' ', 'с', 'е', 'д', 'м'], ['о', 'к', 'т', 'о', 'м', 'в', 'р', 'и'], ['о', 'н', 'з', 'и', ' ', 'д', 'е', 'н'], ['с', 'л', 'е', 'д', ' ', 'д', 'е', 'н'], ['с', 'л', 'е', 'д', ' ', 'ч', 'а', 'с'], ['т', 'о', 'з', 'и', ' ', 'м', 'е', 'с'], ['ф', 'е', 'в', 'р', 'у', 'а', 'р', 'и'], ['в', 'т', 'о', 'р', 'н', 'и', 'к'], ['м', 'и', 'н', ' ', 'м', 'е', 'с'], ['н', 'о', 'е', 'м', 'в', 'р', 'и'], ['с', 'е', 'д', 'м', 'и', 'ц', 'а'], ['с', 'е', 'д', 'м', 'и', 'ц', 'и'], ['с', 'е', 'к', 'у', 'н', 'д', 'а'], ['с', 'е', 'к', 'у', 'н', 'д', 'и'], ['с', 'л', ' ', 'с', 'е', 'д', 'м'], ['с', 'л', 'е', 'д', 'в', ' ', 'г'], ['а', 'в', 'г', 'у', 'с', 'т'], ['г', 'о', 'д', 'и', 'н', 'а'], ['г', 'о', 'д', 'и', 'н', 'и'], ['м', 'е', 'с', 'е', 'ц', 'и'], ['м', 'и', 'н', 'у', 'т', 'а'], ['м', 'и', 'н', 'у', 'т', 'и'], ['н', 'е', 'д', 'е', 'л', 'я'], ['с', 'ъ', 'б', 'о', 'т', 'а'], ['я', 'н', 'у', 'а', 'р', 'и'], ['а', 'п', 'р', 'и', 'л'], ['в', 'ч', 'е', 'р', 'а'], ['в', 'ъ', 'р', 'х', 'у'], ['м', 'е', 'с', 'е', 'ц'], ['м', 'и', 'н', ' ', 'г'], ['м', 'и', 'н', ' ', 'м'], ['о', 'к', 'о', 'л', 'о'], ['п', 'е', 'т', 'ъ', 'к'], ['п', 'о', 'д', 'и', 'р'], ['п', 'о', 'с', 'л', 'е'], ['п', 'р', 'е', 'д', 'и'], ['с', 'е', 'п', 'т', 'м'], ['с', 'н', 'о', 'щ', 'и'], ['с', 'р', 'я', 'д', 'а'], ['д', 'е', 'н', 'а'], ['д', 'н', 'е', 'с'], ['м', 'а', 'р', 'т'], ['п', 'р', 'о', 'б'], ['с', 'е', 'г', 'а'], ['с', 'е', 'д', 'м'], ['с', 'е', 'п', 'т'], ['с', 'л', ' ', 'г'], ['с', 'л', ' ', 'м'], ['с', 'л', 'е', 'д'], ['с', 'л', 'о', 'б'], ['у', 'т', 'р', 'е'], ['ч', 'а', 'с', 'а'], ['g', 'm', 't'], ['u', 't', 'c'], ['а', 'в', 'г'], ['а', 'п', 'р'], ['в', 'т', 'о'], ['г', 'о', 'д'], ['д', 'е', 'к'], ['д', 'е', 'н'], ['д', 'н', 'и'], ['м', 'а', 'и'], ['м', 'е', 'с'], ['м', 'и', 'н'], ['н', 'о', 'е'], ['о', 'к', 'т'], ['п', 'о', 'д'], ['п', 'о', 'н'], ['с', 'е', 'д'], ['с', 'е', 'к'], ['с', 'е', 'п'], ['с', 'р', 'я'], ['т', ' ', 'г'], ['т', ' ', 'м'], ['ф', 'е', 'в'], ['ч', 'а', 'с'], ['ю', 'л', 'и'], ['ю', 'н', 'и'], ['я', 'н', 'у'], ['a', 'm'], ['p', 'm'], ['а', 'п'], ['в', 'т'], ['д', 'о'], ['н', 'а'], ['н', 'д'], ['о', 'т'], ['п', 'н'], ['п', 'т'], ['с', 'б'], ['с', 'р'], ['ф', 'в'], ['ч', 'т'], ['ю', 'л'], ['ю', 'н'], ['я', 'н'], [' '], ['\''], ['+'], [','], ['-'], ['.'], ['/'], [':'], [';'], ['@'], ['['], [']'], ['z'], ['|'], ['г'], ['д'], ['м'], ['с'], ['ч']] }

end Verif.Data
