import Verif.Data.Dicts
/-! GENERATED by tools/gen_pats.py from /repo/internal/data; do not edit. -/
set_option autoImplicit false
set_option maxRecDepth 100000
namespace Verif.Data
open Verif.Model

/-- internal/data/lag.go: `lag_Locale`. -/
def lagLang : LangData := { lagDict with
  knownWords :=
   [['k', 'w', 'i', 'i', 'n', 'y', 'a', 'm', 'b', 'a', 'l', 'a'], ['t', 'h', 'i', 's', ' ', 'm', 'i', 'n', 'u', 't', 'e'], ['k', 'w', 'i', 'i', 'd', 'w', 'a', 'a', 't', 'a'], ['l', 'a', 'm', 'ʉ', 't', 'o', 'o', 'n', 'd', 'o'], ['l', 'a', 's', 't', ' ', 'm', 'o', 'n', 't', 'h'], ['n', 'e', 'x', 't', ' ', 'm', 'o', 'n', 't', 'h'], ['t', 'h', 'i', 's', ' ', 'm', 'o', 'n', 't', 'h'], ['i', 'n', 'y', 'a', 'm', 'b', 'a', 'l', 'a'], ['j', 'u', 'm', 'a', 'm', 'o', 'o', 's', 'i'], ['j', 'u', 'm', 'a', 'p', 'i', 'i', 'r', 'i'], ['j', 'u', 'm', 'a', 't', 'a', 'a', 'n', 'o'], ['k', 'ʉ', 'f', 'u', 'n', 'g', 'a', 't', 'ɨ'], ['k', 'ʉ', 'm', 'ʉ', 'ʉ', 'n', 'c', 'h', 'ɨ'], ['l', 'a', 's', 't', ' ', 'w', 'e', 'e', 'k'], ['l', 'a', 's', 't', ' ', 'y', 'e', 'a', 'r'], ['n', 'e', 'x', 't', ' ', 'w', 'e', 'e', 'k'], ['n', 'e', 'x', 't', ' ', 'y', 'e', 'a', 'r'], ['t', 'h', 'i', 's', ' ', 'h', 'o', 'u', 'r'], ['t', 'h', 'i', 's', ' ', 'w', 'e', 'e', 'k'], ['t', 'h', 'i', 's', ' ', 'y', 'e', 'a', 'r'], ['a', 'l', 'a', 'm', 'i', 'i', 's', 'i'], ['j', 'u', 'm', 'a', 't', 'a', 't', 'u'], ['k', 'w', 'i', 'i', 'k', 'u', 'm', 'i'], ['k', 'ʉ', 'k', 'e', 'e', 'n', 'd', 'a'], ['k', 'ʉ', 's', 'a', 's', 'a', 't', 'ʉ'], ['s', 'e', 'k', 'u', 'u', 'n', 'd', 'e'], ['f', 'u', 'n', 'g', 'a', 't', 'ɨ'], ['i', 'd', 'w', 'a', 'a', 't', 'a'], ['j', 'u', 'm', 'a', 'i', 'n', 'e'], ['k', 'w', 'i', 'i', 'n', 'y', 'i'], ['k', 'ʉ', 'n', 'a', 'a', 'n', 'ɨ'], ['k', 'ʉ', 's', 'a', 'a', 'n', 'o'], ['k', 'ʉ', 's', 'a', 'a', 't', 'ʉ'], ['k', 'ʉ', 'v', 'ɨ', 'ɨ', 'r', 'ɨ'], ['m', 'ʉ', 'ʉ', 'n', 'c', 'h', 'ɨ'], ['d', 'a', 'k', 'i', 'k', 'a'], ['i', 'j', 'u', 'm', 'a', 'a'], ['k', 'e', 'e', 'n', 'd', 'a'], ['m', 'w', 'a', 'a', 'k', 'a'], ['m', 'w', 'e', 'e', 'r', 'i'], ['s', 'a', 's', 'a', 't', 'ʉ'], ['i', 'k', 'u', 'm', 'i'], ['i', 's', 'i', 'k', 'ʉ'], ['m', 'o', 'o', 's', 'i'], ['n', 'a', 'a', 'n', 'ɨ'], ['n', 'i', 'i', 'j', 'o'], ['p', 'i', 'i', 'l', 'i'], ['s', 'a', 'a', 'n', 'o'], ['s', 'a', 'a', 't', 'ʉ'], ['t', 'a', 'a', 'n', 'o'], ['t', 'a', 'a', 't', 'u'], ['v', 'ɨ', 'ɨ', 'r', 'ɨ'], ['w', 'i', 'i', 'k', 'i'], ['i', 'n', 'y', 'i'], ['s', 'i', 'k', 'ʉ'], ['a', 'l', 'h'], ['g', 'm', 't'], ['i', 'j', 'm'], ['i', 'n', 'e'], ['m', 'u', 'u'], ['n', 'o', 'w'], ['s', 'a', 'a'], ['t', 'o', 'o'], ['u', 't', 'c'], ['a', 'm'], ['p', 'm'], [' '], ['\''], ['+'], [','], ['-'], ['.'], ['/'], [':'], [';'], ['@'], ['['], [']'], ['z'], ['|']] }

/-- internal/data/lb.go: `lb_Locale`. -/
def lbLang : LangData := { lbDict with
  relativeRegexes :=
   [(.seqs [.lit ['v', 'i', 'r', 'u', 'n', ' '], .grp 1 (.number), .lit [' ', 'm', 'i', 'n', 'u', 't', 't']], [.ref 1, .lit [' ', 'm', 'i', 'n', 'u', 't', 'e', ' ', 'a', 'g', 'o']]),
    (.seqs [.lit ['v', 'i', 'r', 'u', 'n', ' '], .grp 1 (.number), .lit [' ', 's', 'e', 'k', 'o', 'n', 'n']], [.ref 1, .lit [' ', 's', 'e', 'c', 'o', 'n', 'd', ' ', 'a', 'g', 'o']]),
    (.seqs [.lit ['v', 'i', 'r', 'u', 'n', ' '], .grp 1 (.number), .lit [' ', 'm', 'o', 'u', 'n', 't']], [.ref 1, .lit [' ', 'm', 'o', 'n', 't', 'h', ' ', 'a', 'g', 'o']]),
    (.seqs [.lit ['v', 'i', 'r', 'u', 'n', ' '], .grp 1 (.number), .lit [' ', 's', 't', 'o', 'n', 'n']], [.ref 1, .lit [' ', 'h', 'o', 'u', 'r', ' ', 'a', 'g', 'o']]),
    (.seqs [.lit ['v', 'i', 'r', 'u', 'n', ' '], .grp 1 (.number), .lit [' ', 'j', 'o', 'e', 'r']], [.ref 1, .lit [' ', 'y', 'e', 'a', 'r', ' ', 'a', 'g', 'o']]),
    (.seqs [.lit ['v', 'i', 'r', 'u', 'n', ' '], .grp 1 (.number), .lit [' ', 'w', 'o', 'c', 'h']], [.ref 1, .lit [' ', 'w', 'e', 'e', 'k', ' ', 'a', 'g', 'o']]),
    (.seqs [.lit ['a', 'n', ' '], .grp 1 (.number), .lit [' ', 'm', 'i', 'n', 'u', 't', 't']], [.lit ['i', 'n', ' '], .ref 1, .lit [' ', 'm', 'i', 'n', 'u', 't', 'e']]),
    (.seqs [.lit ['a', 'n', ' '], .grp 1 (.number), .lit [' ', 's', 'e', 'k', 'o', 'n', 'n']], [.lit ['i', 'n', ' '], .ref 1, .lit [' ', 's', 'e', 'c', 'o', 'n', 'd']]),
    (.seqs [.lit ['v', 'i', 'r', 'u', 'n', ' '], .grp 1 (.number), .lit [' ', 'd', 'a', 'g']], [.ref 1, .lit [' ', 'd', 'a', 'y', ' ', 'a', 'g', 'o']]),
    (.seqs [.lit ['v', 'i', 'r', 'u', 'n', ' '], .grp 1 (.number), .lit [' ', 'm', 'i', 'n']], [.ref 1, .lit [' ', 'm', 'i', 'n', 'u', 't', 'e', ' ', 'a', 'g', 'o']]),
    (.seqs [.lit ['v', 'i', 'r', 'u', 'n', ' '], .grp 1 (.number), .lit [' ', 's', 'e', 'k']], [.ref 1, .lit [' ', 's', 'e', 'c', 'o', 'n', 'd', ' ', 'a', 'g', 'o']]),
    (.seqs [.lit ['a', 'n', ' '], .grp 1 (.number), .lit [' ', 'm', 'o', 'u', 'n', 't']], [.lit ['i', 'n', ' '], .ref 1, .lit [' ', 'm', 'o', 'n', 't', 'h']]),
    (.seqs [.lit ['a', 'n', ' '], .grp 1 (.number), .lit [' ', 's', 't', 'o', 'n', 'n']], [.lit ['i', 'n', ' '], .ref 1, .lit [' ', 'h', 'o', 'u', 'r']]),
    (.seqs [.lit ['v', 'i', 'r', 'u', 'n', ' '], .grp 1 (.number), .lit [' ', 's', 't']], [.ref 1, .lit [' ', 'h', 'o', 'u', 'r', ' ', 'a', 'g', 'o']]),
    (.seqs [.lit ['a', 'n', ' '], .grp 1 (.number), .lit [' ', 'j', 'o', 'e', 'r']], [.lit ['i', 'n', ' '], .ref 1, .lit [' ', 'y', 'e', 'a', 'r']]),
    (.seqs [.lit ['a', 'n', ' '], .grp 1 (.number), .lit [' ', 'w', 'o', 'c', 'h']], [.lit ['i', 'n', ' '], .ref 1, .lit [' ', 'w', 'e', 'e', 'k']]),
    (.seqs [.lit ['v', 'i', 'r', 'u', 'n', ' '], .grp 1 (.number), .lit [' ', 'd']], [.ref 1, .lit [' ', 'd', 'a', 'y', ' ', 'a', 'g', 'o']]),
    (.seqs [.lit ['v', 'i', 'r', 'u', 'n', ' '], .grp 1 (.number), .lit [' ', 'j']], [.ref 1, .lit [' ', 'y', 'e', 'a', 'r', ' ', 'a', 'g', 'o']]),
    (.seqs [.lit ['v', 'i', 'r', 'u', 'n', ' '], .grp 1 (.number), .lit [' ', 'm']], [.ref 1, .lit [' ', 'm', 'o', 'n', 't', 'h', ' ', 'a', 'g', 'o']]),
    (.seqs [.lit ['v', 'i', 'r', 'u', 'n', ' '], .grp 1 (.number), .lit [' ', 'w']], [.ref 1, .lit [' ', 'w', 'e', 'e', 'k', ' ', 'a', 'g', 'o']]),
    (.seqs [.lit ['a', 'n', ' '], .grp 1 (.number), .lit [' ', 'd', 'a', 'g']], [.lit ['i', 'n', ' '], .ref 1, .lit [' ', 'd', 'a', 'y']]),
    (.seqs [.lit ['a', 'n', ' '], .grp 1 (.number), .lit [' ', 'm', 'i', 'n']], [.lit ['i', 'n', ' '], .ref 1, .lit [' ', 'm', 'i', 'n', 'u', 't', 'e']]),
    (.seqs [.lit ['a', 'n', ' '], .grp 1 (.number), .lit [' ', 's', 'e', 'k']], [.lit ['i', 'n', ' '], .ref 1, .lit [' ', 's', 'e', 'c', 'o', 'n', 'd']]),
    (.seqs [.lit ['a', 'n', ' '], .grp 1 (.number), .lit [' ', 's', 't']], [.lit ['i', 'n', ' '], .ref 1, .lit [' ', 'h', 'o', 'u', 'r']]),
    (.seqs [.lit ['a', 'n', ' '], .grp 1 (.number), .lit [' ', 'd']], [.lit ['i', 'n', ' '], .ref 1, .lit [' ', 'd', 'a', 'y']]),
    (.seqs [.lit ['a', 'n', ' '], .grp 1 (.number), .lit [' ', 'j']], [.lit ['i', 'n', ' '], .ref 1, .lit [' ', 'y', 'e', 'a', 'r']]),
    (.seqs [.lit ['a', 'n', ' '], .grp 1 (.number), .lit [' ', 'm']], [.lit ['i', 'n', ' '], .ref 1, .lit [' ', 'm', 'o', 'n', 't', 'h']]),
    (.seqs [.lit ['a', 'n', ' '], .grp 1 (.number), .lit [' ', 'w']], [.lit ['i', 'n', ' '], .ref 1, .lit [' ', 'w', 'e', 'e', 'k']])],
  rxCombined := some (.seqs [.grp 1 (.alts [.bos, .cls true [.letter, .mark, .digit], .lit ['_']]), .grp 2 (.alts [.seqs [.lit ['v', 'i', 'r', 'u', 'n', ' '], .number, .lit [' ', 'm', 'i', 'n', 'u', 't', 't']], .seqs [.lit ['v', 'i', 'r', 'u', 'n', ' '], .number, .lit [' ', 's', 'e', 'k', 'o', 'n', 'n']], .seqs [.lit ['v', 'i', 'r', 'u', 'n', ' '], .number, .lit [' ', 'm', 'o', 'u', 'n', 't']], .seqs [.lit ['v', 'i', 'r', 'u', 'n', ' '], .number, .lit [' ', 's', 't', 'o', 'n', 'n']], .seqs [.lit ['v', 'i', 'r', 'u', 'n', ' '], .number, .lit [' ', 'j', 'o', 'e', 'r']], .seqs [.lit ['v', 'i', 'r', 'u', 'n', ' '], .number, .lit [' ', 'w', 'o', 'c', 'h']], .seqs [.lit ['a', 'n', ' '], .number, .lit [' ', 'm', 'i', 'n', 'u', 't', 't']], .seqs [.lit ['a', 'n', ' '], .number, .lit [' ', 's', 'e', 'k', 'o', 'n', 'n']], .seqs [.lit ['v', 'i', 'r', 'u', 'n', ' '], .number, .lit [' ', 'd', 'a', 'g']], .seqs [.lit ['v', 'i', 'r', 'u', 'n', ' '], .number, .lit [' ', 'm', 'i', 'n']], .seqs [.lit ['v', 'i', 'r', 'u', 'n', ' '], .number, .lit [' ', 's', 'e', 'k']], .seqs [.lit ['a', 'n', ' '], .number, .lit [' ', 'm', 'o', 'u', 'n', 't']], .seqs [.lit ['a', 'n', ' '], .number, .lit [' ', 's', 't', 'o', 'n', 'n']], .seqs [.lit ['v', 'i', 'r', 'u', 'n', ' '], .number, .lit [' ', 's', 't']], .seqs [.lit ['a', 'n', ' '], .number, .lit [' ', 'j', 'o', 'e', 'r']], .seqs [.lit ['a', 'n', ' '], .number, .lit [' ', 'w', 'o', 'c', 'h']], .seqs [.lit ['v', 'i', 'r', 'u', 'n', ' '], .number, .lit [' ', 'd']], .seqs [.lit ['v', 'i', 'r', 'u', 'n', ' '], .number, .lit [' ', 'j']], .seqs [.lit ['v', 'i', 'r', 'u', 'n', ' '], .number, .lit [' ', 'm']], .seqs [.lit ['v', 'i', 'r', 'u', 'n', ' '], .number, .lit [' ', 'w']], .seqs [.lit ['a', 'n', ' '], .number, .lit [' ', 'd', 'a', 'g']], .seqs [.lit ['a', 'n', ' '], .number, .lit [' ', 'm', 'i', 'n']], .seqs [.lit ['a', 'n', ' '], .number, .lit [' ', 's', 'e', 'k']], .seqs [.lit ['a', 'n', ' '], .number, .lit [' ', 's', 't']], .seqs [.lit ['a', 'n', ' '], .number, .lit [' ', 'd']], .seqs [.lit ['a', 'n', ' '], .number, .lit [' ', 'j']], .seqs [.lit ['a', 'n', ' '], .number, .lit [' ', 'm']], .seqs [.lit ['a', 'n', ' '], .number, .lit [' ', 'w']]]), .grp 3 (.alts [.eos, .cls true [.letter, .mark, .digit], .lit ['_']])], 3),
  rxExact := some (.seqs [.bos, .grp 1 (.alts [.seqs [.lit ['v', 'i', 'r', 'u', 'n', ' '], .number, .lit [' ', 'm', 'i', 'n', 'u', 't', 't']], .seqs [.lit ['v', 'i', 'r', 'u', 'n', ' '], .number, .lit [' ', 's', 'e', 'k', 'o', 'n', 'n']], .seqs [.lit ['v', 'i', 'r', 'u', 'n', ' '], .number, .lit [' ', 'm', 'o', 'u', 'n', 't']], .seqs [.lit ['v', 'i', 'r', 'u', 'n', ' '], .number, .lit [' ', 's', 't', 'o', 'n', 'n']], .seqs [.lit ['v', 'i', 'r', 'u', 'n', ' '], .number, .lit [' ', 'j', 'o', 'e', 'r']], .seqs [.lit ['v', 'i', 'r', 'u', 'n', ' '], .number, .lit [' ', 'w', 'o', 'c', 'h']], .seqs [.lit ['a', 'n', ' '], .number, .lit [' ', 'm', 'i', 'n', 'u', 't', 't']], .seqs [.lit ['a', 'n', ' '], .number, .lit [' ', 's', 'e', 'k', 'o', 'n', 'n']], .seqs [.lit ['v', 'i', 'r', 'u', 'n', ' '], .number, .lit [' ', 'd', 'a', 'g']], .seqs [.lit ['v', 'i', 'r', 'u', 'n', ' '], .number, .lit [' ', 'm', 'i', 'n']], .seqs [.lit ['v', 'i', 'r', 'u', 'n', ' '], .number, .lit [' ', 's', 'e', 'k']], .seqs [.lit ['a', 'n', ' '], .number, .lit [' ', 'm', 'o', 'u', 'n', 't']], .seqs [.lit ['a', 'n', ' '], .number, .lit [' ', 's', 't', 'o', 'n', 'n']], .seqs [.lit ['v', 'i', 'r', 'u', 'n', ' '], .number, .lit [' ', 's', 't']], .seqs [.lit ['a', 'n', ' '], .number, .lit [' ', 'j', 'o', 'e', 'r']], .seqs [.lit ['a', 'n', ' '], .number, .lit [' ', 'w', 'o', 'c', 'h']], .seqs [.lit ['v', 'i', 'r', 'u', 'n', ' '], .number, .lit [' ', 'd']], .seqs [.lit ['v', 'i', 'r', 'u', 'n', ' '], .number, .lit [' ', 'j']], .seqs [.lit ['v', 'i', 'r', 'u', 'n', ' '], .number, .lit [' ', 'm']], .seqs [.lit ['v', 'i', 'r', 'u', 'n', ' '], .number, .lit [' ', 'w']], .seqs [.lit ['a', 'n', ' '], .number, .lit [' ', 'd', 'a', 'g']], .seqs [.lit ['a', 'n', ' '], .number, .lit [' ', 'm', 'i', 'n']], .seqs [.lit ['a', 'n', ' '], .number, .lit [' ', 's', 'e', 'k']], .seqs [.lit ['a', 'n', ' '], .number, .lit [' ', 's', 't']], .seqs [.lit ['a', 'n', ' '], .number, .lit [' ', 'd']], .seqs [.lit ['a', 'n', ' '], .number, .lit [' ', 'j']], .seqs [.lit ['a', 'n', ' '], .number, .lit [' ', 'm']], .seqs [.lit ['a', 'n', ' '], .number, .lit [' ', 'w']]]), .eos]),
  knownWords :=
   [['l', 'e', 's', 'c', 'h', 't', 'e', ' ', 'm', 'o', 'u', 'n', 't'], ['n', 'a', 'c', 'h', 's', 't', 'e', ' ', 'm', 'o', 'u', 'n', 't'], ['d', 'o', 'n', 'n', 'e', 's', 'c', 'h', 'd', 'e', 'g'], ['l', 'e', 's', 'c', 'h', 't', ' ', 'j', 'o', 'e', 'r'], ['l', 'e', 's', 'c', 'h', 't', ' ', 'w', 'o', 'c', 'h'], ['n', 'a', 'c', 'h', 's', 't', ' ', 'j', 'o', 'e', 'r'], ['n', 'a', 'c', 'h', 's', 't', ' ', 'w', 'o', 'c', 'h'], ['t', 'h', 'i', 's', ' ', 'm', 'i', 'n', 'u', 't', 'e'], ['d', 'e', 's', 'e', ' ', 'm', 'o', 'u', 'n', 't'], ['d', 'e', 'n', 's', 'c', 'h', 'd', 'e', 'g'], ['d', 'e', 's', 't', ' ', 'j', 'o', 'e', 'r'], ['s', 'a', 'm', 's', 'c', 'h', 'd', 'e', 'g'], ['s', 'e', 'p', 't', 'e', 'm', 'b', 'e', 'r'], ['t', 'h', 'i', 's', ' ', 'h', 'o', 'u', 'r'], ['d', 'e', 's', ' ', 'w', 'o', 'c', 'h'], ['d', 'e', 'z', 'e', 'm', 'b', 'e', 'r'], ['g', 'e', 's', 'c', 'h', 't', 'e', 'r'], ['m', 'e', 't', 't', 'w', 'o', 'c', 'h'], ['n', 'o', 'm', 'e', 't', 't', 'e', 's'], ['n', 'o', 'v', 'e', 'm', 'b', 'e', 'r'], ['f', 'e', 'b', 'r', 'u', 'a', 'r'], ['f', 'r', 'e', 'i', 'd', 'e', 'g'], ['m', 'e', 'i', 'n', 'd', 'e', 'g'], ['o', 'k', 't', 'o', 'b', 'e', 'r'], ['s', 'o', 'n', 'n', 'd', 'e', 'g'], ['a', 'b', 'r', 'e', 'l', 'l'], ['a', 'u', 'g', 'u', 's', 't'], ['j', 'a', 'n', 'u', 'a', 'r'], ['m', 'i', 'n', 'u', 't', 't'], ['s', 'e', 'k', 'o', 'n', 'n'], ['m', 'a', 'e', 'r', 'z'], ['m', 'o', 'i', 'e', 's'], ['m', 'o', 'u', 'n', 't'], ['s', 't', 'o', 'n', 'n'], ['h', 'a', 'u', 't'], ['j', 'o', 'e', 'r'], ['j', 'u', 'l', 'i'], ['j', 'u', 'n', 'i'], ['m', 'u', 'e', 'r'], ['w', 'o', 'c', 'h'], ['a', 'b', 'r'], ['a', 'u', 'g'], ['d', 'a', 'g'], ['d', 'e', 'n'], ['d', 'e', 'z'], ['d', 'o', 'n'], ['f', 'e', 'b'], ['f', 'r', 'e'], ['g', 'm', 't'], ['j', 'a', 'n'], ['j', 'u', 'l'], ['j', 'u', 'n'], ['m', 'a', 'e'], ['m', 'e', 'e'], ['m', 'e', 'i'], ['m', 'e', 't'], ['m', 'i', 'n'], ['n', 'o', 'v'], ['n', 'o', 'w'], ['o', 'k', 't'], ['s', 'a', 'm'], ['s', 'e', 'k'], ['s', 'e', 'p'], ['s', 'o', 'n'], ['u', 't', 'c'], ['a', 'm'], ['p', 'm'], ['s', 't'], [' '], ['\''], ['+'], [','], ['-'], ['.'], ['/'], [':'], [';'], ['@'], ['['], [']'], ['d'], ['j'], ['m'], ['w'], ['z'], ['|']] }

/-- internal/data/lg.go: `lg_Locale`. -/
def lgLang : LangData := { lgDict with
  knownWords :=
   [['t', 'h', 'i', 's', ' ', 'm', 'i', 'n', 'u', 't', 'e'], ['l', 'a', 's', 't', ' ', 'm', 'o', 'n', 't', 'h'], ['l', 'w', 'a', 'k', 'u', 't', 'a', 'a', 'n', 'o'], ['l', 'w', 'a', 'm', 'u', 'k', 'a', 'a', 'g', 'a'], ['n', 'e', 'x', 't', ' ', 'm', 'o', 'n', 't', 'h'], ['s', 'e', 'b', 'u', 't', 't', 'e', 'm', 'b', 'a'], ['t', 'h', 'i', 's', ' ', 'm', 'o', 'n', 't', 'h'], ['f', 'e', 'b', 'w', 'a', 'l', 'i', 'y', 'o'], ['j', 'a', 'n', 'w', 'a', 'l', 'i', 'y', 'o'], ['k', 'a', 's', 'i', 'k', 'o', 'n', 'd', 'a'], ['l', 'a', 's', 't', ' ', 'w', 'e', 'e', 'k'], ['l', 'a', 's', 't', ' ', 'y', 'e', 'a', 'r'], ['l', 'w', 'a', 'k', 'u', 'b', 'i', 'r', 'i'], ['l', 'w', 'a', 'k', 'u', 's', 'a', 't', 'u'], ['n', 'e', 'x', 't', ' ', 'w', 'e', 'e', 'k'], ['n', 'e', 'x', 't', ' ', 'y', 'e', 'a', 'r'], ['t', 'h', 'i', 's', ' ', 'h', 'o', 'u', 'r'], ['t', 'h', 'i', 's', ' ', 'w', 'e', 'e', 'k'], ['t', 'h', 'i', 's', ' ', 'y', 'e', 'a', 'r'], ['l', 'w', 'a', 'l', 'e', 'e', 'r', 'o'], ['o', 'k', 'i', 't', 'o', 'b', 'b', 'a'], ['s', 'a', 'b', 'b', 'i', 'i', 't', 'i'], ['a', 'g', 'u', 's', 'i', 't', 'o'], ['d', 'a', 'k', 'i', 'i', 'k', 'a'], ['d', 'e', 's', 'e', 'm', 'b', 'a'], ['j', 'u', 'l', 'a', 'a', 'y', 'i'], ['l', 'w', 'a', 'k', 'u', 'n', 'a'], ['n', 'o', 'v', 'e', 'm', 'b', 'a'], ['b', 'a', 'l', 'a', 'z', 'a'], ['l', 'u', 'n', 'a', 'k', 'u'], ['m', 'a', 'r', 'i', 's', 'i'], ['a', 'p', 'u', 'l', 'i'], ['g', 'g', 'u', 'l', 'o'], ['j', 'u', 'u', 'n', 'i'], ['m', 'a', 'a', 'y', 'i'], ['m', 'w', 'a', 'k', 'a'], ['m', 'w', 'e', 'z', 'i'], ['s', 'a', 'a', 'w', 'a'], ['n', 'k', 'y', 'a'], ['a', 'g', 'u'], ['a', 'p', 'u'], ['b', 'a', 'l'], ['d', 'e', 's'], ['f', 'e', 'b'], ['g', 'm', 't'], ['j', 'a', 'n'], ['j', 'u', 'l'], ['j', 'u', 'u'], ['l', 'w', '2'], ['l', 'w', '3'], ['l', 'w', '4'], ['l', 'w', '5'], ['l', 'w', '6'], ['m', 'a', 'a'], ['m', 'a', 'r'], ['n', 'o', 'v'], ['n', 'o', 'w'], ['o', 'k', 'i'], ['s', 'a', 'b'], ['s', 'e', 'b'], ['u', 't', 'c'], ['a', 'm'], ['p', 'm'], [' '], ['\''], ['+'], [','], ['-'], ['.'], ['/'], [':'], [';'], ['@'], ['['], [']'], ['z'], ['|']] }

/-- internal/data/lkt.go: `lkt_Locale`. -/
def lktLang : LangData := { lktDict with
  relativeRegexes :=
   [(.seqs [.lit ['h', 'e', 'k', 't', 'a', ' ', 'o', 'h', '\'', 'a'], .cls false [.rng 'Ŋ' 'Ŋ', .rng 'ŋ' 'ŋ'], .lit ['k', 'h', 'o', ' '], .grp 1 (.number), .lit [' ', 'k', '\'', 'u'], .cls false [.rng 'Ŋ' 'Ŋ', .rng 'ŋ' 'ŋ'], .lit [' ', 'h', 'e', 'h', 'a'], .cls false [.rng 'Ŋ' 'Ŋ', .rng 'ŋ' 'ŋ']], [.ref 1, .lit [' ', 'm', 'i', 'n', 'u', 't', 'e', ' ', 'a', 'g', 'o']]),
    (.seqs [.lit ['h', 'e', 'k', 't', 'a', ' ', 'w', 'i', 'y', 'a', 'w', 'a', 'p', 'i', ' '], .grp 1 (.number), .lit [' ', 'k', '\'', 'u'], .cls false [.rng 'Ŋ' 'Ŋ', .rng 'ŋ' 'ŋ'], .lit [' ', 'h', 'e', 'h', 'a'], .cls false [.rng 'Ŋ' 'Ŋ', .rng 'ŋ' 'ŋ']], [.ref 1, .lit [' ', 'm', 'o', 'n', 't', 'h', ' ', 'a', 'g', 'o']]),
    (.seqs [.lit ['l', 'e', 't', 'a'], .cls false [.rng 'Ŋ' 'Ŋ', .rng 'ŋ' 'ŋ'], .lit ['h', 'a'], .cls false [.rng 'Ŋ' 'Ŋ', .rng 'ŋ' 'ŋ'], .lit [' ', 'o', 'h', '\'', 'a'], .cls false [.rng 'Ŋ' 'Ŋ', .rng 'ŋ' 'ŋ'], .lit ['k', 'h', 'o', ' '], .grp 1 (.number), .lit [' ', 'k', 'i'], .cls false [.rng 'Ŋ' 'Ŋ', .rng 'ŋ' 'ŋ'], .lit ['h', 'a'], .cls false [.rng 'Ŋ' 'Ŋ', .rng 'ŋ' 'ŋ']], [.lit ['i', 'n', ' '], .ref 1, .lit [' ', 'm', 'i', 'n', 'u', 't', 'e']]),
    (.seqs [.lit ['l', 'e', 't', 'a'], .cls false [.rng 'Ŋ' 'Ŋ', .rng 'ŋ' 'ŋ'], .lit ['h', 'a'], .cls false [.rng 'Ŋ' 'Ŋ', .rng 'ŋ' 'ŋ'], .lit [' ', 'w', 'i', 'y', 'a', 'w', 'a', 'p', 'i', ' '], .grp 1 (.number), .lit [' ', 'k', 'i'], .cls false [.rng 'Ŋ' 'Ŋ', .rng 'ŋ' 'ŋ'], .lit ['h', 'a'], .cls false [.rng 'Ŋ' 'Ŋ', .rng 'ŋ' 'ŋ']], [.lit ['i', 'n', ' '], .ref 1, .lit [' ', 'm', 'o', 'n', 't', 'h']]),
    (.seqs [.lit ['h', 'e', 'k', 't', 'a', ' ', 'o', 'm', 'a', 'k', 'h', 'a', ' '], .grp 1 (.number), .lit [' ', 'k', '\'', 'u'], .cls false [.rng 'Ŋ' 'Ŋ', .rng 'ŋ' 'ŋ'], .lit [' ', 'h', 'e', 'h', 'a'], .cls false [.rng 'Ŋ' 'Ŋ', .rng 'ŋ' 'ŋ']], [.ref 1, .lit [' ', 'y', 'e', 'a', 'r', ' ', 'a', 'g', 'o']]),
    (.seqs [.lit ['h', 'e', 'k', 't', 'a', ' ', 'o', 'w', 'a', 'p', 'h', 'e', ' '], .grp 1 (.number), .lit [' ', 'k', '\'', 'u'], .cls false [.rng 'Ŋ' 'Ŋ', .rng 'ŋ' 'ŋ'], .lit [' ', 'h', 'e', 'h', 'a'], .cls false [.rng 'Ŋ' 'Ŋ', .rng 'ŋ' 'ŋ']], [.ref 1, .lit [' ', 'h', 'o', 'u', 'r', ' ', 'a', 'g', 'o']]),
    (.seqs [.lit ['l', 'e', 't', 'a'], .cls false [.rng 'Ŋ' 'Ŋ', .rng 'ŋ' 'ŋ'], .lit ['h', 'a'], .cls false [.rng 'Ŋ' 'Ŋ', .rng 'ŋ' 'ŋ'], .lit [' ', 'o', 'm', 'a', 'k', 'h', 'a', ' '], .grp 1 (.number), .lit [' ', 'k', 'i'], .cls false [.rng 'Ŋ' 'Ŋ', .rng 'ŋ' 'ŋ'], .lit ['h', 'a'], .cls false [.rng 'Ŋ' 'Ŋ', .rng 'ŋ' 'ŋ']], [.lit ['i', 'n', ' '], .ref 1, .lit [' ', 'y', 'e', 'a', 'r']]),
    (.seqs [.lit ['l', 'e', 't', 'a'], .cls false [.rng 'Ŋ' 'Ŋ', .rng 'ŋ' 'ŋ'], .lit ['h', 'a'], .cls false [.rng 'Ŋ' 'Ŋ', .rng 'ŋ' 'ŋ'], .lit [' ', 'o', 'w', 'a', 'p', 'h', 'e', ' '], .grp 1 (.number), .lit [' ', 'k', 'i'], .cls false [.rng 'Ŋ' 'Ŋ', .rng 'ŋ' 'ŋ'], .lit ['h', 'a'], .cls false [.rng 'Ŋ' 'Ŋ', .rng 'ŋ' 'ŋ']], [.lit ['i', 'n', ' '], .ref 1, .lit [' ', 'h', 'o', 'u', 'r']]),
    (.seqs [.lit ['h', 'e', 'k', 't', 'a', ' '], .grp 1 (.number), .lit ['-', 'c', 'h', 'a'], .cls false [.rng 'Ŋ' 'Ŋ', .rng 'ŋ' 'ŋ'], .lit [' ', 'k', '\'', 'u'], .cls false [.rng 'Ŋ' 'Ŋ', .rng 'ŋ' 'ŋ'], .lit [' ', 'h', 'e', 'h', 'a'], .cls false [.rng 'Ŋ' 'Ŋ', .rng 'ŋ' 'ŋ']], [.ref 1, .lit [' ', 'd', 'a', 'y', ' ', 'a', 'g', 'o']]),
    (.seqs [.lit ['h', 'e', 'k', 't', 'a', ' ', 'o', 'k', 'p', 'i', ' '], .grp 1 (.number), .lit [' ', 'k', '\'', 'u'], .cls false [.rng 'Ŋ' 'Ŋ', .rng 'ŋ' 'ŋ'], .lit [' ', 'h', 'e', 'h', 'a'], .cls false [.rng 'Ŋ' 'Ŋ', .rng 'ŋ' 'ŋ']], [.ref 1, .lit [' ', 's', 'e', 'c', 'o', 'n', 'd', ' ', 'a', 'g', 'o']]),
    (.seqs [.lit ['h', 'e', 'k', 't', 'a', ' ', 'o', 'k', 'o', ' '], .grp 1 (.number), .lit [' ', 'k', '\'', 'u'], .cls false [.rng 'Ŋ' 'Ŋ', .rng 'ŋ' 'ŋ'], .lit [' ', 'h', 'e', 'h', 'a'], .cls false [.rng 'Ŋ' 'Ŋ', .rng 'ŋ' 'ŋ']], [.ref 1, .lit [' ', 'w', 'e', 'e', 'k', ' ', 'a', 'g', 'o']]),
    (.seqs [.lit ['l', 'e', 't', 'a'], .cls false [.rng 'Ŋ' 'Ŋ', .rng 'ŋ' 'ŋ'], .lit ['h', 'a'], .cls false [.rng 'Ŋ' 'Ŋ', .rng 'ŋ' 'ŋ'], .lit [' '], .grp 1 (.number), .lit ['-', 'c', 'h', 'a'], .cls false [.rng 'Ŋ' 'Ŋ', .rng 'ŋ' 'ŋ'], .lit [' ', 'k', 'i'], .cls false [.rng 'Ŋ' 'Ŋ', .rng 'ŋ' 'ŋ'], .lit ['h', 'a'], .cls false [.rng 'Ŋ' 'Ŋ', .rng 'ŋ' 'ŋ']], [.lit ['i', 'n', ' '], .ref 1, .lit [' ', 'd', 'a', 'y']]),
    (.seqs [.lit ['l', 'e', 't', 'a'], .cls false [.rng 'Ŋ' 'Ŋ', .rng 'ŋ' 'ŋ'], .lit ['h', 'a'], .cls false [.rng 'Ŋ' 'Ŋ', .rng 'ŋ' 'ŋ'], .lit [' ', 'o', 'k', 'p', 'i', ' '], .grp 1 (.number), .lit [' ', 'k', 'i'], .cls false [.rng 'Ŋ' 'Ŋ', .rng 'ŋ' 'ŋ'], .lit ['h', 'a'], .cls false [.rng 'Ŋ' 'Ŋ', .rng 'ŋ' 'ŋ']], [.lit ['i', 'n', ' '], .ref 1, .lit [' ', 's', 'e', 'c', 'o', 'n', 'd']]),
    (.seqs [.lit ['l', 'e', 't', 'a'], .cls false [.rng 'Ŋ' 'Ŋ', .rng 'ŋ' 'ŋ'], .lit ['h', 'a'], .cls false [.rng 'Ŋ' 'Ŋ', .rng 'ŋ' 'ŋ'], .lit [' ', 'o', 'k', 'o', ' '], .grp 1 (.number), .lit [' ', 'k', 'i'], .cls false [.rng 'Ŋ' 'Ŋ', .rng 'ŋ' 'ŋ'], .lit ['h', 'a'], .cls false [.rng 'Ŋ' 'Ŋ', .rng 'ŋ' 'ŋ']], [.lit ['i', 'n', ' '], .ref 1, .lit [' ', 'w', 'e', 'e', 'k']])],
  rxCombined := some (.seqs [.grp 1 (.alts [.bos, .cls true [.letter, .mark, .digit], .lit ['_']]), .grp 2 (.alts [.seqs [.lit ['h', 'e', 'k', 't', 'a', ' ', 'o', 'h', '\'', 'a'], .cls false [.rng 'Ŋ' 'Ŋ', .rng 'ŋ' 'ŋ'], .lit ['k', 'h', 'o', ' '], .number, .lit [' ', 'k', '\'', 'u'], .cls false [.rng 'Ŋ' 'Ŋ', .rng 'ŋ' 'ŋ'], .lit [' ', 'h', 'e', 'h', 'a'], .cls false [.rng 'Ŋ' 'Ŋ', .rng 'ŋ' 'ŋ']], .seqs [.lit ['h', 'e', 'k', 't', 'a', ' ', 'w', 'i', 'y', 'a', 'w', 'a', 'p', 'i', ' '], .number, .lit [' ', 'k', '\'', 'u'], .cls false [.rng 'Ŋ' 'Ŋ', .rng 'ŋ' 'ŋ'], .lit [' ', 'h', 'e', 'h', 'a'], .cls false [.rng 'Ŋ' 'Ŋ', .rng 'ŋ' 'ŋ']], .seqs [.lit ['l', 'e', 't', 'a'], .cls false [.rng 'Ŋ' 'Ŋ', .rng 'ŋ' 'ŋ'], .lit ['h', 'a'], .cls false [.rng 'Ŋ' 'Ŋ', .rng 'ŋ' 'ŋ'], .lit [' ', 'o', 'h', '\'', 'a'], .cls false [.rng 'Ŋ' 'Ŋ', .rng 'ŋ' 'ŋ'], .lit ['k', 'h', 'o', ' '], .number, .lit [' ', 'k', 'i'], .cls false [.rng 'Ŋ' 'Ŋ', .rng 'ŋ' 'ŋ'], .lit ['h', 'a'], .cls false [.rng 'Ŋ' 'Ŋ', .rng 'ŋ' 'ŋ']], .seqs [.lit ['l', 'e', 't', 'a'], .cls false [.rng 'Ŋ' 'Ŋ', .rng 'ŋ' 'ŋ'], .lit ['h', 'a'], .cls false [.rng 'Ŋ' 'Ŋ', .rng 'ŋ' 'ŋ'], .lit [' ', 'w', 'i', 'y', 'a', 'w', 'a', 'p', 'i', ' '], .number, .lit [' ', 'k', 'i'], .cls false [.rng 'Ŋ' 'Ŋ', .rng 'ŋ' 'ŋ'], .lit ['h', 'a'], .cls false [.rng 'Ŋ' 'Ŋ', .rng 'ŋ' 'ŋ']], .seqs [.lit ['h', 'e', 'k', 't', 'a', ' ', 'o', 'm', 'a', 'k', 'h', 'a', ' '], .number, .lit [' ', 'k', '\'', 'u'], .cls false [.rng 'Ŋ' 'Ŋ', .rng 'ŋ' 'ŋ'], .lit [' ', 'h', 'e', 'h', 'a'], .cls false [.rng 'Ŋ' 'Ŋ', .rng 'ŋ' 'ŋ']], .seqs [.lit ['h', 'e', 'k', 't', 'a', ' ', 'o', 'w', 'a', 'p', 'h', 'e', ' '], .number, .lit [' ', 'k', '\'', 'u'], .cls false [.rng 'Ŋ' 'Ŋ', .rng 'ŋ' 'ŋ'], .lit [' ', 'h', 'e', 'h', 'a'], .cls false [.rng 'Ŋ' 'Ŋ', .rng 'ŋ' 'ŋ']], .seqs [.lit ['l', 'e', 't', 'a'], .cls false [.rng 'Ŋ' 'Ŋ', .rng 'ŋ' 'ŋ'], .lit ['h', 'a'], .cls false [.rng 'Ŋ' 'Ŋ', .rng 'ŋ' 'ŋ'], .lit [' ', 'o', 'm', 'a', 'k', 'h', 'a', ' '], .number, .lit [' ', 'k', 'i'], .cls false [.rng 'Ŋ' 'Ŋ', .rng 'ŋ' 'ŋ'], .lit ['h', 'a'], .cls false [.rng 'Ŋ' 'Ŋ', .rng 'ŋ' 'ŋ']], .seqs [.lit ['l', 'e', 't', 'a'], .cls false [.rng 'Ŋ' 'Ŋ', .rng 'ŋ' 'ŋ'], .lit ['h', 'a'], .cls false [.rng 'Ŋ' 'Ŋ', .rng 'ŋ' 'ŋ'], .lit [' ', 'o', 'w', 'a', 'p', 'h', 'e', ' '], .number, .lit [' ', 'k', 'i'], .cls false [.rng 'Ŋ' 'Ŋ', .rng 'ŋ' 'ŋ'], .lit ['h', 'a'], .cls false [.rng 'Ŋ' 'Ŋ', .rng 'ŋ' 'ŋ']], .seqs [.lit ['h', 'e', 'k', 't', 'a', ' '], .number, .lit ['-', 'c', 'h', 'a'], .cls false [.rng 'Ŋ' 'Ŋ', .rng 'ŋ' 'ŋ'], .lit [' ', 'k', '\'', 'u'], .cls false [.rng 'Ŋ' 'Ŋ', .rng 'ŋ' 'ŋ'], .lit [' ', 'h', 'e', 'h', 'a'], .cls false [.rng 'Ŋ' 'Ŋ', .rng 'ŋ' 'ŋ']], .seqs [.lit ['h', 'e', 'k', 't', 'a', ' ', 'o', 'k', 'p', 'i', ' '], .number, .lit [' ', 'k', '\'', 'u'], .cls false [.rng 'Ŋ' 'Ŋ', .rng 'ŋ' 'ŋ'], .lit [' ', 'h', 'e', 'h', 'a'], .cls false [.rng 'Ŋ' 'Ŋ', .rng 'ŋ' 'ŋ']], .seqs [.lit ['h', 'e', 'k', 't', 'a', ' ', 'o', 'k', 'o', ' '], .number, .lit [' ', 'k', '\'', 'u'], .cls false [.rng 'Ŋ' 'Ŋ', .rng 'ŋ' 'ŋ'], .lit [' ', 'h', 'e', 'h', 'a'], .cls false [.rng 'Ŋ' 'Ŋ', .rng 'ŋ' 'ŋ']], .seqs [.lit ['l', 'e', 't', 'a'], .cls false [.rng 'Ŋ' 'Ŋ', .rng 'ŋ' 'ŋ'], .lit ['h', 'a'], .cls false [.rng 'Ŋ' 'Ŋ', .rng 'ŋ' 'ŋ'], .lit [' '], .number, .lit ['-', 'c', 'h', 'a'], .cls false [.rng 'Ŋ' 'Ŋ', .rng 'ŋ' 'ŋ'], .lit [' ', 'k', 'i'], .cls false [.rng 'Ŋ' 'Ŋ', .rng 'ŋ' 'ŋ'], .lit ['h', 'a'], .cls false [.rng 'Ŋ' 'Ŋ', .rng 'ŋ' 'ŋ']], .seqs [.lit ['l', 'e', 't', 'a'], .cls false [.rng 'Ŋ' 'Ŋ', .rng 'ŋ' 'ŋ'], .lit ['h', 'a'], .cls false [.rng 'Ŋ' 'Ŋ', .rng 'ŋ' 'ŋ'], .lit [' ', 'o', 'k', 'p', 'i', ' '], .number, .lit [' ', 'k', 'i'], .cls false [.rng 'Ŋ' 'Ŋ', .rng 'ŋ' 'ŋ'], .lit ['h', 'a'], .cls false [.rng 'Ŋ' 'Ŋ', .rng 'ŋ' 'ŋ']], .seqs [.lit ['l', 'e', 't', 'a'], .cls false [.rng 'Ŋ' 'Ŋ', .rng 'ŋ' 'ŋ'], .lit ['h', 'a'], .cls false [.rng 'Ŋ' 'Ŋ', .rng 'ŋ' 'ŋ'], .lit [' ', 'o', 'k', 'o', ' '], .number, .lit [' ', 'k', 'i'], .cls false [.rng 'Ŋ' 'Ŋ', .rng 'ŋ' 'ŋ'], .lit ['h', 'a'], .cls false [.rng 'Ŋ' 'Ŋ', .rng 'ŋ' 'ŋ']]]), .grp 3 (.alts [.eos, .cls true [.letter, .mark, .digit], .lit ['_']])], 3),
  rxExact := some (.seqs [.bos, .grp 1 (.alts [.seqs [.lit ['h', 'e', 'k', 't', 'a', ' ', 'o', 'h', '\'', 'a'], .cls false [.rng 'Ŋ' 'Ŋ', .rng 'ŋ' 'ŋ'], .lit ['k', 'h', 'o', ' '], .number, .lit [' ', 'k', '\'', 'u'], .cls false [.rng 'Ŋ' 'Ŋ', .rng 'ŋ' 'ŋ'], .lit [' ', 'h', 'e', 'h', 'a'], .cls false [.rng 'Ŋ' 'Ŋ', .rng 'ŋ' 'ŋ']], .seqs [.lit ['h', 'e', 'k', 't', 'a', ' ', 'w', 'i', 'y', 'a', 'w', 'a', 'p', 'i', ' '], .number, .lit [' ', 'k', '\'', 'u'], .cls false [.rng 'Ŋ' 'Ŋ', .rng 'ŋ' 'ŋ'], .lit [' ', 'h', 'e', 'h', 'a'], .cls false [.rng 'Ŋ' 'Ŋ', .rng 'ŋ' 'ŋ']], .seqs [.lit ['l', 'e', 't', 'a'], .cls false [.rng 'Ŋ' 'Ŋ', .rng 'ŋ' 'ŋ'], .lit ['h', 'a'], .cls false [.rng 'Ŋ' 'Ŋ', .rng 'ŋ' 'ŋ'], .lit [' ', 'o', 'h', '\'', 'a'], .cls false [.rng 'Ŋ' 'Ŋ', .rng 'ŋ' 'ŋ'], .lit ['k', 'h', 'o', ' '], .number, .lit [' ', 'k', 'i'], .cls false [.rng 'Ŋ' 'Ŋ', .rng 'ŋ' 'ŋ'], .lit ['h', 'a'], .cls false [.rng 'Ŋ' 'Ŋ', .rng 'ŋ' 'ŋ']], .seqs [.lit ['l', 'e', 't', 'a'], .cls false [.rng 'Ŋ' 'Ŋ', .rng 'ŋ' 'ŋ'], .lit ['h', 'a'], .cls false [.rng 'Ŋ' 'Ŋ', .rng 'ŋ' 'ŋ'], .lit [' ', 'w', 'i', 'y', 'a', 'w', 'a', 'p', 'i', ' '], .number, .lit [' ', 'k', 'i'], .cls false [.rng 'Ŋ' 'Ŋ', .rng 'ŋ' 'ŋ'], .lit ['h', 'a'], .cls false [.rng 'Ŋ' 'Ŋ', .rng 'ŋ' 'ŋ']], .seqs [.lit ['h', 'e', 'k', 't', 'a', ' ', 'o', 'm', 'a', 'k', 'h', 'a', ' '], .number, .lit [' ', 'k', '\'', 'u'], .cls false [.rng 'Ŋ' 'Ŋ', .rng 'ŋ' 'ŋ'], .lit [' ', 'h', 'e', 'h', 'a'], .cls false [.rng 'Ŋ' 'Ŋ', .rng 'ŋ' 'ŋ']], .seqs [.lit ['h', 'e', 'k', 't', 'a', ' ', 'o', 'w', 'a', 'p', 'h', 'e', ' '], .number, .lit [' ', 'k', '\'', 'u'], .cls false [.rng 'Ŋ' 'Ŋ', .rng 'ŋ' 'ŋ'], .lit [' ', 'h', 'e', 'h', 'a'], .cls false [.rng 'Ŋ' 'Ŋ', .rng 'ŋ' 'ŋ']], .seqs [.lit ['l', 'e', 't', 'a'], .cls false [.rng 'Ŋ' 'Ŋ', .rng 'ŋ' 'ŋ'], .lit ['h', 'a'], .cls false [.rng 'Ŋ' 'Ŋ', .rng 'ŋ' 'ŋ'], .lit [' ', 'o', 'm', 'a', 'k', 'h', 'a', ' '], .number, .lit [' ', 'k', 'i'], .cls false [.rng 'Ŋ' 'Ŋ', .rng 'ŋ' 'ŋ'], .lit ['h', 'a'], .cls false [.rng 'Ŋ' 'Ŋ', .rng 'ŋ' 'ŋ']], .seqs [.lit ['l', 'e', 't', 'a'], .cls false [.rng 'Ŋ' 'Ŋ', .rng 'ŋ' 'ŋ'], .lit ['h', 'a'], .cls false [.rng 'Ŋ' 'Ŋ', .rng 'ŋ' 'ŋ'], .lit [' ', 'o', 'w', 'a', 'p', 'h', 'e', ' '], .number, .lit [' ', 'k', 'i'], .cls false [.rng 'Ŋ' 'Ŋ', .rng 'ŋ' 'ŋ'], .lit ['h', 'a'], .cls false [.rng 'Ŋ' 'Ŋ', .rng 'ŋ' 'ŋ']], .seqs [.lit ['h', 'e', 'k', 't', 'a', ' '], .number, .lit ['-', 'c', 'h', 'a'], .cls false [.rng 'Ŋ' 'Ŋ', .rng 'ŋ' 'ŋ'], .lit [' ', 'k', '\'', 'u'], .cls false [.rng 'Ŋ' 'Ŋ', .rng 'ŋ' 'ŋ'], .lit [' ', 'h', 'e', 'h', 'a'], .cls false [.rng 'Ŋ' 'Ŋ', .rng 'ŋ' 'ŋ']], .seqs [.lit ['h', 'e', 'k', 't', 'a', ' ', 'o', 'k', 'p', 'i', ' '], .number, .lit [' ', 'k', '\'', 'u'], .cls false [.rng 'Ŋ' 'Ŋ', .rng 'ŋ' 'ŋ'], .lit [' ', 'h', 'e', 'h', 'a'], .cls false [.rng 'Ŋ' 'Ŋ', .rng 'ŋ' 'ŋ']], .seqs [.lit ['h', 'e', 'k', 't', 'a', ' ', 'o', 'k', 'o', ' '], .number, .lit [' ', 'k', '\'', 'u'], .cls false [.rng 'Ŋ' 'Ŋ', .rng 'ŋ' 'ŋ'], .lit [' ', 'h', 'e', 'h', 'a'], .cls false [.rng 'Ŋ' 'Ŋ', .rng 'ŋ' 'ŋ']], .seqs [.lit ['l', 'e', 't', 'a'], .cls false [.rng 'Ŋ' 'Ŋ', .rng 'ŋ' 'ŋ'], .lit ['h', 'a'], .cls false [.rng 'Ŋ' 'Ŋ', .rng 'ŋ' 'ŋ'], .lit [' '], .number, .lit ['-', 'c', 'h', 'a'], .cls false [.rng 'Ŋ' 'Ŋ', .rng 'ŋ' 'ŋ'], .lit [' ', 'k', 'i'], .cls false [.rng 'Ŋ' 'Ŋ', .rng 'ŋ' 'ŋ'], .lit ['h', 'a'], .cls false [.rng 'Ŋ' 'Ŋ', .rng 'ŋ' 'ŋ']], .seqs [.lit ['l', 'e', 't', 'a'], .cls false [.rng 'Ŋ' 'Ŋ', .rng 'ŋ' 'ŋ'], .lit ['h', 'a'], .cls false [.rng 'Ŋ' 'Ŋ', .rng 'ŋ' 'ŋ'], .lit [' ', 'o', 'k', 'p', 'i', ' '], .number, .lit [' ', 'k', 'i'], .cls false [.rng 'Ŋ' 'Ŋ', .rng 'ŋ' 'ŋ'], .lit ['h', 'a'], .cls false [.rng 'Ŋ' 'Ŋ', .rng 'ŋ' 'ŋ']], .seqs [.lit ['l', 'e', 't', 'a'], .cls false [.rng 'Ŋ' 'Ŋ', .rng 'ŋ' 'ŋ'], .lit ['h', 'a'], .cls false [.rng 'Ŋ' 'Ŋ', .rng 'ŋ' 'ŋ'], .lit [' ', 'o', 'k', 'o', ' '], .number, .lit [' ', 'k', 'i'], .cls false [.rng 'Ŋ' 'Ŋ', .rng 'ŋ' 'ŋ'], .lit ['h', 'a'], .cls false [.rng 'Ŋ' 'Ŋ', .rng 'ŋ' 'ŋ']]]), .eos]),
  knownWords :=
   [['t', 'h', 'o', 'k', 'a', 't', 'a', ' ', 'o', 'm', 'a', 'k', 'h', 'a', ' ', 'k', 'i', 'ŋ', 'h', 'a', 'ŋ'], ['t', 'h', 'o', 'k', 'a', 't', 'a', ' ', 'o', 'k', 'o', ' ', 'k', 'i', 'ŋ', 'h', 'a', 'ŋ'], ['w', 'i', 'p', 'a', 'z', 'u', 'k', 'h', 'a', '-', 'w', 'a', 's', 't', 'e', ' ', 'w', 'i'], ['c', 'h', 'a', 'ŋ', 'w', 'a', 'p', 'e', '-', 'k', 'a', 's', 'n', 'a', ' ', 'w', 'i'], ['i', 's', 't', 'a', 'w', 'i', 'c', 'h', 'a', 'y', 'a', 'z', 'a', 'ŋ', ' ', 'w', 'i'], ['o', 'm', 'a', 'k', 'h', 'a', ' ', 'k', '\'', 'u', 'ŋ', ' ', 'h', 'e', 'h', 'a', 'ŋ'], ['t', 'h', 'o', 'k', 'a', 't', 'a', ' ', 'w', 'i', ' ', 'k', 'i', 'ŋ', 'h', 'a', 'ŋ'], ['h', 'i', 'ŋ', 'h', 'a', 'ŋ', 'n', 'i', ' ', 'k', 'i', 'ŋ', 'h', 'a', 'ŋ'], ['o', 'w', 'a', 'p', 'h', 'e', ' ', 'o', 'h', '\'', 'a', 'ŋ', 'k', 'h', 'o'], ['t', 'h', 'i', 'y', 'o', 'h', 'e', 'y', 'u', 'ŋ', 'k', 'a', ' ', 'w', 'i'], ['c', 'h', 'a', 'ŋ', 'p', 'h', 'a', 's', 'a', 'p', 'a', ' ', 'w', 'i'], ['c', 'h', 'a', 'ŋ', 'w', 'a', 'p', 'e', 't', 'h', 'o', ' ', 'w', 'i'], ['o', 'k', 'o', ' ', 'k', '\'', 'u', 'ŋ', ' ', 'h', 'e', 'h', 'a', 'ŋ'], ['t', 'h', 'a', 'h', 'e', 'k', 'a', 'p', 's', 'u', 'ŋ', ' ', 'w', 'i'], ['c', 'h', 'a', 'ŋ', 'w', 'a', 'p', 'e', 'g', 'i', ' ', 'w', 'i'], ['l', 'e', ' ', 'a', 'ŋ', 'p', 'e', 't', 'u', ' ', 'k', 'i', 'ŋ'], ['l', 'e', ' ', 'o', 'm', 'a', 'k', 'h', 'a', ' ', 'k', 'i', 'ŋ'], ['o', 'w', 'a', 'ŋ', 'g', 'y', 'u', 'z', 'a', 'z', 'a', 'p', 'i'], ['w', 'i', ' ', 'k', '\'', 'u', 'ŋ', ' ', 'h', 'e', 'h', 'a', 'ŋ'], ['w', 'i', 'o', 't', 'h', 'e', 'h', 'i', 'k', 'a', ' ', 'w', 'i'], ['a', 'ŋ', 'p', 'e', 't', 'u', 'w', 'a', 'k', 'h', 'a', 'ŋ'], ['a', 'ŋ', 'p', 'e', 't', 'u', 'z', 'a', 'p', 't', 'a', 'ŋ'], ['a', 'ŋ', 'p', 'e', 't', 'u', 'n', 'u', 'ŋ', 'p', 'a'], ['a', 'ŋ', 'p', 'e', 't', 'u', 'w', 'a', 'ŋ', 'z', 'i'], ['a', 'ŋ', 'p', 'e', 't', 'u', 'y', 'a', 'm', 'n', 'i'], ['p', 'h', 'e', 'z', 'i', 't', 'h', 'o', ' ', 'w', 'i'], ['t', 'h', 'i', 's', ' ', 'm', 'i', 'n', 'u', 't', 'e'], ['w', 'a', 'n', 'i', 'y', 'e', 't', 'u', ' ', 'w', 'i'], ['w', 'a', 's', 'u', 't', 'h', 'u', 'ŋ', ' ', 'w', 'i'], ['a', 'ŋ', 'p', 'e', 't', 'u', 't', 'o', 'p', 'a'], ['l', 'e', ' ', 'o', 'k', 'o', ' ', 'k', 'i', 'ŋ'], ['l', 'e', ' ', 'w', 'i', ' ', 'k', 'i', 'ŋ'], ['t', 'h', 'i', 's', ' ', 'h', 'o', 'u', 'r'], ['h', 't', 'a', 'l', 'e', 'h', 'a', 'ŋ'], ['a', 'ŋ', 'p', 'e', 't', 'u'], ['o', 'm', 'a', 'k', 'h', 'a'], ['o', 'w', 'a', 'p', 'h', 'e'], ['o', 'k', 'p', 'i'], ['g', 'm', 't'], ['n', 'o', 'w'], ['o', 'k', 'o'], ['u', 't', 'c'], ['a', 'm'], ['p', 'm'], ['w', 'i'], [' '], ['\''], ['+'], [','], ['-'], ['.'], ['/'], [':'], [';'], ['@'], ['['], [']'], ['z'], ['|']] }

/-- internal/data/ln.go: `ln_Locale`. -/
def lnLang : LangData := { lnDict with
  knownWords :=
   [['s', 'a', 'n', 'z', 'a', ' ', 'y', 'a', ' ', 'z', 'o', 'm', 'i', ' ', 'n', 'a', ' ', 'm', 'i', 'b', 'a', 'l', 'e'], ['s', 'a', 'n', 'z', 'a', ' ', 'y', 'a', ' ', 'z', 'o', 'm', 'i', ' ', 'n', 'a', ' ', 'm', 'ɔ', 'k', 'ɔ'], ['m', 'o', 'k', 'ɔ', 'l', 'ɔ', ' ', 'm', 'w', 'a', ' ', 'm', 'i', 'b', 'a', 'l', 'e'], ['m', 'o', 'k', 'ɔ', 'l', 'ɔ', ' ', 'm', 'w', 'a', ' ', 'm', 'i', 's', 'a', 't', 'o'], ['m', 'o', 'k', 'ɔ', 'l', 'ɔ', ' ', 'm', 'w', 'a', ' ', 'y', 'a', 'm', 'b', 'o'], ['m', 'o', 'k', 'ɔ', 'l', 'ɔ', ' ', 'y', 'a', ' ', 'm', 'i', 't', 'a', 'n', 'o'], ['m', 'o', 'k', 'ɔ', 'l', 'ɔ', ' ', 'y', 'a', ' ', 'm', 'i', 'n', 'e', 'i'], ['s', 'a', 'n', 'z', 'a', ' ', 'y', 'a', ' ', 'm', 'i', 'b', 'a', 'l', 'e'], ['s', 'a', 'n', 'z', 'a', ' ', 'y', 'a', ' ', 'm', 'i', 's', 'a', 't', 'o'], ['s', 'a', 'n', 'z', 'a', ' ', 'y', 'a', ' ', 'm', 'i', 't', 'a', 'n', 'o'], ['s', 'a', 'n', 'z', 'a', ' ', 'y', 'a', ' ', 'm', 'o', 't', 'o', 'b', 'a'], ['s', 'a', 'n', 'z', 'a', ' ', 'y', 'a', ' ', 'm', 'w', 'a', 'm', 'b', 'e'], ['s', 'a', 'n', 'z', 'a', ' ', 'y', 'a', ' ', 'n', 's', 'a', 'm', 'b', 'o'], ['s', 'a', 'n', 'z', 'a', ' ', 'y', 'a', ' ', 'l', 'i', 'b', 'w', 'a'], ['s', 'a', 'n', 'z', 'a', ' ', 'y', 'a', ' ', 'm', 'i', 'n', 'e', 'i'], ['s', 'a', 'n', 'z', 'a', ' ', 'y', 'a', ' ', 'y', 'a', 'm', 'b', 'o'], ['s', 'a', 'n', 'z', 'a', ' ', 'y', 'a', ' ', 'z', 'o', 'm', 'i'], ['t', 'h', 'i', 's', ' ', 'm', 'i', 'n', 'u', 't', 'e'], ['l', 'a', 's', 't', ' ', 'm', 'o', 'n', 't', 'h'], ['l', 'o', 'b', 'i', ' ', 'e', 'k', 'o', 'y', 'a'], ['l', 'o', 'b', 'i', ' ', 'e', 'l', 'e', 'k', 'i'], ['n', 'e', 'x', 't', ' ', 'm', 'o', 'n', 't', 'h'], ['t', 'h', 'i', 's', ' ', 'm', 'o', 'n', 't', 'h'], ['l', 'a', 's', 't', ' ', 'w', 'e', 'e', 'k'], ['l', 'a', 's', 't', ' ', 'y', 'e', 'a', 'r'], ['n', 'e', 'x', 't', ' ', 'w', 'e', 'e', 'k'], ['n', 'e', 'x', 't', ' ', 'y', 'e', 'a', 'r'], ['t', 'h', 'i', 's', ' ', 'h', 'o', 'u', 'r'], ['t', 'h', 'i', 's', ' ', 'w', 'e', 'e', 'k'], ['t', 'h', 'i', 's', ' ', 'y', 'e', 'a', 'r'], ['s', 'ɛ', 'k', 'ɔ', 'n', 'd', 'ɛ'], ['e', 'y', 'e', 'n', 'g', 'a'], ['m', 'o', 'k', 'ɔ', 'l', 'ɔ'], ['m', 'o', 'n', 'u', 't', 'i'], ['m', 'p', 'o', 'k', 'w', 'a'], ['n', 'g', 'o', 'n', 'g', 'a'], ['n', 't', 'ɔ', 'n', 'g', 'ɔ'], ['m', 'p', 'ɔ', 's', 'ɔ'], ['s', 'a', 'n', 'z', 'a'], ['l', 'ɛ', 'l', 'ɔ'], ['m', 'o', 'b', 'u'], ['p', 'ɔ', 's', 'ɔ'], ['a', 'g', 't'], ['a', 'p', 'l'], ['d', 's', 'b'], ['e', 'y', 'e'], ['f', 'b', 'l'], ['g', 'm', 't'], ['m', 'a', 'i'], ['m', 'b', 'l'], ['m', 'i', 'n'], ['m', 'p', 's'], ['m', 's', 'i'], ['m', 's', 't'], ['m', 't', 'n'], ['n', 'o', 'w'], ['n', 'v', 'b'], ['s', 't', 'b'], ['u', 't', 'c'], ['y', 'a', 'n'], ['y', 'b', 'o'], ['y', 'u', 'l'], ['y', 'u', 'n'], ['ɔ', 't', 'b'], ['a', 'm'], ['p', 'm'], [' '], ['\''], ['+'], [','], ['-'], ['.'], ['/'], [':'], [';'], ['@'], ['['], [']'], ['z'], ['|']] }

/-- internal/data/ln.go: `ln_AO_Locale`. -/
def ln_AOLang : LangData := ln_AODict

/-- internal/data/ln.go: `ln_CF_Locale`. -/
def ln_CFLang : LangData := ln_CFDict

/-- internal/data/ln.go: `ln_CG_Locale`. -/
def ln_CGLang : LangData := ln_CGDict

/-- internal/data/lo.go: `lo_Locale`. -/
def loLang : LangData := { loDict with
  relativeRegexes :=
   [(.seqs [.grp 1 (.number), .lit [' ', 'ໃ', 'ນ', 'ອ', 'ກ', ' ', '0', ' ', 'ນ', 'າ', 'ທ']], [.lit ['i', 'n', ' '], .ref 1, .lit [' ', 'm', 'i', 'n', 'u', 't', 'e']]),
    (.seqs [.lit ['ໃ', 'ນ', 'ອ', 'ກ', ' '], .grp 1 (.number), .lit [' ', 'ຊ', 'ວ', 'ໂ', 'ມ', 'ງ']], [.lit ['i', 'n', ' '], .ref 1, .lit [' ', 'h', 'o', 'u', 'r']]),
    (.seqs [.lit ['ໃ', 'ນ', 'ອ', 'ກ', ' '], .grp 1 (.number), .lit [' ', 'ວ', 'ນ', 'າ', 'ທ']], [.lit ['i', 'n', ' '], .ref 1, .lit [' ', 's', 'e', 'c', 'o', 'n', 'd']]),
    (.seqs [.lit ['ໃ', 'ນ', 'ອ', 'ກ', ' '], .grp 1 (.number), .lit [' ', 'ອ', 'າ', 'ທ', 'ດ']], [.lit ['i', 'n', ' '], .ref 1, .lit [' ', 'w', 'e', 'e', 'k']]),
    (.seqs [.lit ['ໃ', 'ນ', 'ອ', 'ກ', ' '], .grp 1 (.number), .lit [' ', 'ເ', 'ດ', 'ອ', 'ນ']], [.lit ['i', 'n', ' '], .ref 1, .lit [' ', 'm', 'o', 'n', 't', 'h']]),
    (.seqs [.grp 1 (.number), .lit [' ', 'ຊ', 'ວ', 'ໂ', 'ມ', 'ງ', 'ກ', 'ອ', 'ນ']], [.ref 1, .lit [' ', 'h', 'o', 'u', 'r', ' ', 'a', 'g', 'o']]),
    (.seqs [.grp 1 (.number), .lit [' ', 'ວ', 'ນ', 'າ', 'ທ', 'ກ', 'ອ', 'ນ']], [.ref 1, .lit [' ', 's', 'e', 'c', 'o', 'n', 'd', ' ', 'a', 'g', 'o']]),
    (.seqs [.grp 1 (.number), .lit [' ', 'ອ', 'າ', 'ທ', 'ດ', 'ກ', 'ອ', 'ນ']], [.ref 1, .lit [' ', 'w', 'e', 'e', 'k', ' ', 'a', 'g', 'o']]),
    (.seqs [.grp 1 (.number), .lit [' ', 'ເ', 'ດ', 'ອ', 'ນ', 'ກ', 'ອ', 'ນ']], [.ref 1, .lit [' ', 'm', 'o', 'n', 't', 'h', ' ', 'a', 'g', 'o']]),
    (.seqs [.lit ['ໃ', 'ນ', 'ອ', 'ກ', ' '], .grp 1 (.number), .lit [' ', 'ຊ', 'ມ']], [.lit ['i', 'n', ' '], .ref 1, .lit [' ', 'h', 'o', 'u', 'r']]),
    (.seqs [.lit ['ໃ', 'ນ', 'ອ', 'ກ', ' '], .grp 1 (.number), .lit [' ', 'ອ', 'ທ']], [.lit ['i', 'n', ' '], .ref 1, .lit [' ', 'w', 'e', 'e', 'k']]),
    (.seqs [.grp 1 (.number), .lit [' ', 'ຊ', 'ມ', ' ', 'ກ', 'ອ', 'ນ']], [.ref 1, .lit [' ', 'h', 'o', 'u', 'r', ' ', 'a', 'g', 'o']]),
    (.seqs [.grp 1 (.number), .lit [' ', 'ນ', 'ທ', ' ', 'ກ', 'ອ', 'ນ']], [.ref 1, .lit [' ', 'm', 'i', 'n', 'u', 't', 'e', ' ', 'a', 'g', 'o']]),
    (.seqs [.grp 1 (.number), .lit [' ', 'ນ', 'າ', 'ທ', 'ກ', 'ອ', 'ນ']], [.ref 1, .lit [' ', 'm', 'i', 'n', 'u', 't', 'e', ' ', 'a', 'g', 'o']]),
    (.seqs [.grp 1 (.number), .lit [' ', 'ອ', 'ທ', ' ', 'ກ', 'ອ', 'ນ']], [.ref 1, .lit [' ', 'w', 'e', 'e', 'k', ' ', 'a', 'g', 'o']]),
    (.seqs [.lit ['ໃ', 'ນ', 'ອ', 'ກ', ' '], .grp 1 (.number), .lit [' ', 'ດ']], [.lit ['i', 'n', ' '], .ref 1, .lit [' ', 'm', 'o', 'n', 't', 'h']]),
    (.seqs [.lit ['ໃ', 'ນ', 'ອ', 'ກ', ' '], .grp 1 (.number), .lit [' ', 'ປ']], [.lit ['i', 'n', ' '], .ref 1, .lit [' ', 'y', 'e', 'a', 'r']]),
    (.seqs [.lit ['ໃ', 'ນ', 'ອ', 'ກ', ' '], .grp 1 (.number), .lit [' ', 'ມ']], [.lit ['i', 'n', ' '], .ref 1, .lit [' ', 'd', 'a', 'y']]),
    (.seqs [.grp 1 (.number), .lit [' ', 'ດ', ' ', 'ກ', 'ອ', 'ນ']], [.ref 1, .lit [' ', 'm', 'o', 'n', 't', 'h', ' ', 'a', 'g', 'o']]),
    (.seqs [.grp 1 (.number), .lit [' ', 'ວ', ' ', 'ກ', 'ອ', 'ນ']], [.ref 1, .lit [' ', 's', 'e', 'c', 'o', 'n', 'd', ' ', 'a', 'g', 'o']]),
    (.seqs [.lit ['ໃ', 'ນ', ' '], .grp 1 (.number), .lit [' ', 'ນ', 'ທ']], [.lit ['i', 'n', ' '], .ref 1, .lit [' ', 'm', 'i', 'n', 'u', 't', 'e']]),
    (.seqs [.grp 1 (.number), .lit [' ', 'ປ', 'ກ', 'ອ', 'ນ']], [.ref 1, .lit [' ', 'y', 'e', 'a', 'r', ' ', 'a', 'g', 'o']]),
    (.seqs [.grp 1 (.number), .lit [' ', 'ມ', 'ກ', 'ອ', 'ນ']], [.ref 1, .lit [' ', 'd', 'a', 'y', ' ', 'a', 'g', 'o']]),
    (.seqs [.lit ['ໃ', 'ນ', ' '], .grp 1 (.number), .lit [' ', 'ວ']], [.lit ['i', 'n', ' '], .ref 1, .lit [' ', 's', 'e', 'c', 'o', 'n', 'd']])],
  rxCombined := some (.seqs [.grp 1 (.alts [.bos, .cls true [.letter, .mark, .digit], .lit ['_']]), .grp 2 (.alts [.seqs [.number, .lit [' ', 'ໃ', 'ນ', 'ອ', 'ກ', ' ', '0', ' ', 'ນ', 'າ', 'ທ']], .seqs [.lit ['ໃ', 'ນ', 'ອ', 'ກ', ' '], .number, .lit [' ', 'ຊ', 'ວ', 'ໂ', 'ມ', 'ງ']], .seqs [.lit ['ໃ', 'ນ', 'ອ', 'ກ', ' '], .number, .lit [' ', 'ວ', 'ນ', 'າ', 'ທ']], .seqs [.lit ['ໃ', 'ນ', 'ອ', 'ກ', ' '], .number, .lit [' ', 'ອ', 'າ', 'ທ', 'ດ']], .seqs [.lit ['ໃ', 'ນ', 'ອ', 'ກ', ' '], .number, .lit [' ', 'ເ', 'ດ', 'ອ', 'ນ']], .seqs [.number, .lit [' ', 'ຊ', 'ວ', 'ໂ', 'ມ', 'ງ', 'ກ', 'ອ', 'ນ']], .seqs [.number, .lit [' ', 'ວ', 'ນ', 'າ', 'ທ', 'ກ', 'ອ', 'ນ']], .seqs [.number, .lit [' ', 'ອ', 'າ', 'ທ', 'ດ', 'ກ', 'ອ', 'ນ']], .seqs [.number, .lit [' ', 'ເ', 'ດ', 'ອ', 'ນ', 'ກ', 'ອ', 'ນ']], .seqs [.lit ['ໃ', 'ນ', 'ອ', 'ກ', ' '], .number, .lit [' ', 'ຊ', 'ມ']], .seqs [.lit ['ໃ', 'ນ', 'ອ', 'ກ', ' '], .number, .lit [' ', 'ອ', 'ທ']], .seqs [.number, .lit [' ', 'ຊ', 'ມ', ' ', 'ກ', 'ອ', 'ນ']], .seqs [.number, .lit [' ', 'ນ', 'ທ', ' ', 'ກ', 'ອ', 'ນ']], .seqs [.number, .lit [' ', 'ນ', 'າ', 'ທ', 'ກ', 'ອ', 'ນ']], .seqs [.number, .lit [' ', 'ອ', 'ທ', ' ', 'ກ', 'ອ', 'ນ']], .seqs [.lit ['ໃ', 'ນ', 'ອ', 'ກ', ' '], .number, .lit [' ', 'ດ']], .seqs [.lit ['ໃ', 'ນ', 'ອ', 'ກ', ' '], .number, .lit [' ', 'ປ']], .seqs [.lit ['ໃ', 'ນ', 'ອ', 'ກ', ' '], .number, .lit [' ', 'ມ']], .seqs [.number, .lit [' ', 'ດ', ' ', 'ກ', 'ອ', 'ນ']], .seqs [.number, .lit [' ', 'ວ', ' ', 'ກ', 'ອ', 'ນ']], .seqs [.lit ['ໃ', 'ນ', ' '], .number, .lit [' ', 'ນ', 'ທ']], .seqs [.number, .lit [' ', 'ປ', 'ກ', 'ອ', 'ນ']], .seqs [.number, .lit [' ', 'ມ', 'ກ', 'ອ', 'ນ']], .seqs [.lit ['ໃ', 'ນ', ' '], .number, .lit [' ', 'ວ']]]), .grp 3 (.alts [.eos, .cls true [.letter, .mark, .digit], .lit ['_']])], 3),
  rxExact := some (.seqs [.bos, .grp 1 (.alts [.seqs [.number, .lit [' ', 'ໃ', 'ນ', 'ອ', 'ກ', ' ', '0', ' ', 'ນ', 'າ', 'ທ']], .seqs [.lit ['ໃ', 'ນ', 'ອ', 'ກ', ' '], .number, .lit [' ', 'ຊ', 'ວ', 'ໂ', 'ມ', 'ງ']], .seqs [.lit ['ໃ', 'ນ', 'ອ', 'ກ', ' '], .number, .lit [' ', 'ວ', 'ນ', 'າ', 'ທ']], .seqs [.lit ['ໃ', 'ນ', 'ອ', 'ກ', ' '], .number, .lit [' ', 'ອ', 'າ', 'ທ', 'ດ']], .seqs [.lit ['ໃ', 'ນ', 'ອ', 'ກ', ' '], .number, .lit [' ', 'ເ', 'ດ', 'ອ', 'ນ']], .seqs [.number, .lit [' ', 'ຊ', 'ວ', 'ໂ', 'ມ', 'ງ', 'ກ', 'ອ', 'ນ']], .seqs [.number, .lit [' ', 'ວ', 'ນ', 'າ', 'ທ', 'ກ', 'ອ', 'ນ']], .seqs [.number, .lit [' ', 'ອ', 'າ', 'ທ', 'ດ', 'ກ', 'ອ', 'ນ']], .seqs [.number, .lit [' ', 'ເ', 'ດ', 'ອ', 'ນ', 'ກ', 'ອ', 'ນ']], .seqs [.lit ['ໃ', 'ນ', 'ອ', 'ກ', ' '], .number, .lit [' ', 'ຊ', 'ມ']], .seqs [.lit ['ໃ', 'ນ', 'ອ', 'ກ', ' '], .number, .lit [' ', 'ອ', 'ທ']], .seqs [.number, .lit [' ', 'ຊ', 'ມ', ' ', 'ກ', 'ອ', 'ນ']], .seqs [.number, .lit [' ', 'ນ', 'ທ', ' ', 'ກ', 'ອ', 'ນ']], .seqs [.number, .lit [' ', 'ນ', 'າ', 'ທ', 'ກ', 'ອ', 'ນ']], .seqs [.number, .lit [' ', 'ອ', 'ທ', ' ', 'ກ', 'ອ', 'ນ']], .seqs [.lit ['ໃ', 'ນ', 'ອ', 'ກ', ' '], .number, .lit [' ', 'ດ']], .seqs [.lit ['ໃ', 'ນ', 'ອ', 'ກ', ' '], .number, .lit [' ', 'ປ']], .seqs [.lit ['ໃ', 'ນ', 'ອ', 'ກ', ' '], .number, .lit [' ', 'ມ']], .seqs [.number, .lit [' ', 'ດ', ' ', 'ກ', 'ອ', 'ນ']], .seqs [.number, .lit [' ', 'ວ', ' ', 'ກ', 'ອ', 'ນ']], .seqs [.lit ['ໃ', 'ນ', ' '], .number, .lit [' ', 'ນ', 'ທ']], .seqs [.number, .lit [' ', 'ປ', 'ກ', 'ອ', 'ນ']], .seqs [.number, .lit [' ', 'ມ', 'ກ', 'ອ', 'ນ']], .seqs [.lit ['ໃ', 'ນ', ' '], .number, .lit [' ', 'ວ']]]), .eos]),
  knownWords :=
   [['ວ', 'ນ', 'ອ', 'ງ', 'ຄ', 'າ', 'ນ'], ['ອ', 'າ', 'ທ', 'ດ', 'ຫ', 'ນ', 'າ'], ['ອ', 'າ', 'ທ', 'ດ', 'ແ', 'ລ', 'ວ'], ['ເ', 'ດ', 'ອ', 'ນ', 'ຫ', 'ນ', 'າ'], ['ເ', 'ດ', 'ອ', 'ນ', 'ແ', 'ລ', 'ວ'], ['ກ', 'ອ', 'ນ', 'ທ', 'ຽ', 'ງ'], ['ຊ', 'ວ', 'ໂ', 'ມ', 'ງ', 'ນ'], ['ພ', 'ດ', 'ສ', 'ະ', 'ພ', 'າ'], ['ວ', 'ນ', 'ພ', 'ະ', 'ຫ', 'ດ'], ['ວ', 'ນ', 'ອ', 'າ', 'ທ', 'ດ'], ['ກ', 'ລ', 'ະ', 'ກ', 'ດ'], ['ຊ', 'ວ', 'ໂ', 'ມ', 'ງ'], ['ມ', 'ງ', 'ກ', 'ອ', 'ນ'], ['ວ', 'ນ', 'ເ', 'ສ', 'າ'], ['ຫ', 'ງ', 'ທ', 'ຽ', 'ງ'], ['ອ', 'ງ', 'ຄ', 'າ', 'ນ'], ['ອ', 'າ', 'ທ', 'ດ', 'ນ'], ['ເ', 'ດ', 'ອ', 'ນ', 'ນ'], ['ກ', 'ນ', 'ຍ', 'າ'], ['ກ', 'ມ', 'ພ', 'າ'], ['ຕ', 'ອ', 'ນ', 'ນ'], ['ທ', 'ນ', 'ວ', 'າ'], ['ນ', 'າ', 'ທ', 'ນ'], ['ປ', 'ກ', 'າ', 'ຍ'], ['ປ', 'ຫ', 'ນ', 'າ'], ['ພ', 'ະ', 'ຈ', 'ກ'], ['ພ', 'ະ', 'ຫ', 'ດ'], ['ມ', 'ຖ', 'ນ', 'າ'], ['ມ', 'ວ', 'າ', 'ນ'], ['ວ', 'ນ', 'ຈ', 'ນ'], ['ວ', 'ນ', 'ພ', 'ດ'], ['ວ', 'ນ', 'ສ', 'ກ'], ['ວ', 'ນ', 'າ', 'ທ'], ['ສ', 'ງ', 'ຫ', 'າ'], ['ອ', 'າ', 'ທ', 'ດ'], ['ເ', 'ດ', 'ອ', 'ນ'], ['ເ', 'ມ', 'ສ', 'າ'], ['g', 'm', 't'], ['u', 't', 'c'], ['ຕ', 'ລ', 'າ'], ['ນ', 'າ', 'ທ'], ['ມ', 'ນ', 'າ'], ['ມ', 'ອ', 'ນ'], ['ເ', 'ສ', 'າ'], ['a', 'm'], ['p', 'm'], ['ກ', 'ຍ'], ['ກ', 'ພ'], ['ກ', 'ລ'], ['ຈ', 'ນ'], ['ຊ', 'ມ'], ['ຕ', 'ລ'], ['ທ', 'ວ'], ['ນ', 'ທ'], ['ປ', 'ນ'], ['ພ', 'ຈ'], ['ພ', 'ດ'], ['ພ', 'ພ'], ['ມ', 'ກ'], ['ມ', 'ຖ'], ['ມ', 'ນ'], ['ມ', 'ສ'], ['ສ', 'ກ'], ['ສ', 'ຫ'], [' '], ['\''], ['+'], [','], ['-'], ['.'], ['/'], [':'], [';'], ['@'], ['['], [']'], ['z'], ['|'], ['ດ'], ['ປ'], ['ມ'], ['ວ'], ['ອ']] }

/-- internal/data/lrc.go: `lrc_Locale`. -/
def lrcLang : LangData := { lrcDict with
  knownWords :=
   [['t', 'h', 'i', 's', ' ', 'm', 'i', 'n', 'u', 't', 'e'], ['l', 'a', 's', 't', ' ', 'm', 'o', 'n', 't', 'h'], ['n', 'e', 'x', 't', ' ', 'm', 'o', 'n', 't', 'h'], ['t', 'h', 'i', 's', ' ', 'm', 'o', 'n', 't', 'h'], ['l', 'a', 's', 't', ' ', 'w', 'e', 'e', 'k'], ['l', 'a', 's', 't', ' ', 'y', 'e', 'a', 'r'], ['n', 'e', 'x', 't', ' ', 'w', 'e', 'e', 'k'], ['n', 'e', 'x', 't', ' ', 'y', 'e', 'a', 'r'], ['t', 'h', 'i', 's', ' ', 'h', 'o', 'u', 'r'], ['t', 'h', 'i', 's', ' ', 'w', 'e', 'e', 'k'], ['t', 'h', 'i', 's', ' ', 'y', 'e', 'a', 'r'], ['س', 'ي', 'پ', 'ت', 'ا', 'م', 'ر'], ['ي', 'و', 'ک', 'ت', 'و', 'ڤ', 'ر'], ['ج', 'ا', 'ن', 'ڤ', 'ی', 'ە'], ['د', 'ي', 'س', 'ا', 'م', 'ر'], ['ف', 'ي', 'ڤ', 'ر', 'ی', 'ە'], ['ن', 'و', 'ڤ', 'ا', 'م', 'ر'], ['ا', 'ڤ', 'ر', 'ی', 'ل'], ['ا', 'گ', 'و', 'س', 'ت'], ['ث', 'ا', 'ن', 'ی', 'ە'], ['د', 'ي', 'ی', 'ق', 'ە'], ['د', 'ی', 'ر', 'و', 'ز'], ['ھ', 'ا', 'ف', 'ت', 'ە'], ['ا', 'م', 'ر', 'و'], ['ج', 'و', 'ا', 'ن'], ['ج', 'و', 'ل', 'ا'], ['س', 'ا', 'ا', 'ت'], ['ش', 'و', 'ص', 'و'], ['م', 'ا', 'ر', 'س'], ['f', 'r', 'i'], ['g', 'm', 't'], ['m', 'o', 'n'], ['n', 'o', 'w'], ['s', 'a', 't'], ['s', 'u', 'n'], ['t', 'h', 'u'], ['t', 'u', 'e'], ['u', 't', 'c'], ['w', 'e', 'd'], ['ر', 'و', 'ز'], ['س', 'ا', 'ل'], ['م', 'ي', 'ی'], ['a', 'm'], ['p', 'm'], ['م', 'ا'], [' '], ['\''], ['+'], [','], ['-'], ['.'], ['/'], [':'], [';'], ['@'], ['['], [']'], ['z'], ['|']] }

/-- internal/data/lrc.go: `lrc_IQ_Locale`. -/
def lrc_IQLang : LangData := lrc_IQDict

/-- internal/data/lt.go: `lt_Locale`. -/
def ltLang : LangData := { ltDict with
  relativeRegexes :=
   [(.seqs [.lit ['p', 'r', 'i', 'e', 's', ' '], .grp 1 (.number), .lit [' ', 's', 'e', 'k', 'u', 'n', 'd', 'z', 'i', 'u']], [.ref 1, .lit [' ', 's', 'e', 'c', 'o', 'n', 'd', ' ', 'a', 'g', 'o']]),
    (.seqs [.lit ['p', 'r', 'i', 'e', 's', ' '], .grp 1 (.number), .lit [' ', 's', 'a', 'v', 'a', 'i', 'c', 'i', 'u']], [.ref 1, .lit [' ', 'w', 'e', 'e', 'k', ' ', 'a', 'g', 'o']]),
    (.seqs [.lit ['p', 'r', 'i', 'e', 's', ' '], .grp 1 (.number), .lit [' ', 'm', 'e', 'n', 'e', 's', 'i', 'u']], [.ref 1, .lit [' ', 'm', 'o', 'n', 't', 'h', ' ', 'a', 'g', 'o']]),
    (.seqs [.lit ['p', 'r', 'i', 'e', 's', ' '], .grp 1 (.number), .lit [' ', 'm', 'i', 'n', 'u', 'c', 'i', 'u']], [.ref 1, .lit [' ', 'm', 'i', 'n', 'u', 't', 'e', ' ', 'a', 'g', 'o']]),
    (.seqs [.lit ['p', 'r', 'i', 'e', 's', ' '], .grp 1 (.number), .lit [' ', 's', 'a', 'v', 'a', 'i', 't', 'e']], [.ref 1, .lit [' ', 'w', 'e', 'e', 'k', ' ', 'a', 'g', 'o']]),
    (.seqs [.lit ['p', 'r', 'i', 'e', 's', ' '], .grp 1 (.number), .lit [' ', 's', 'e', 'k', 'u', 'n', 'd', 'e']], [.ref 1, .lit [' ', 's', 'e', 'c', 'o', 'n', 'd', ' ', 'a', 'g', 'o']]),
    (.seqs [.lit ['p', 'r', 'i', 'e', 's', ' '], .grp 1 (.number), .lit [' ', 'v', 'a', 'l', 'a', 'n', 'd', 'a']], [.ref 1, .lit [' ', 'h', 'o', 'u', 'r', ' ', 'a', 'g', 'o']]),
    (.seqs [.lit ['p', 'r', 'i', 'e', 's', ' '], .grp 1 (.number), .lit [' ', 'v', 'a', 'l', 'a', 'n', 'd', 'u']], [.ref 1, .lit [' ', 'h', 'o', 'u', 'r', ' ', 'a', 'g', 'o']]),
    (.seqs [.lit ['p', 'o', ' '], .grp 1 (.number), .lit [' ', 's', 'e', 'k', 'u', 'n', 'd', 'z', 'i', 'u']], [.lit ['i', 'n', ' '], .ref 1, .lit [' ', 's', 'e', 'c', 'o', 'n', 'd']]),
    (.seqs [.lit ['p', 'r', 'i', 'e', 's', ' '], .grp 1 (.number), .lit [' ', 'm', 'e', 'n', 'e', 's', 'i']], [.ref 1, .lit [' ', 'm', 'o', 'n', 't', 'h', ' ', 'a', 'g', 'o']]),
    (.seqs [.lit ['p', 'r', 'i', 'e', 's', ' '], .grp 1 (.number), .lit [' ', 'm', 'i', 'n', 'u', 't', 'e']], [.ref 1, .lit [' ', 'm', 'i', 'n', 'u', 't', 'e', ' ', 'a', 'g', 'o']]),
    (.seqs [.lit ['p', 'o', ' '], .grp 1 (.number), .lit [' ', 's', 'a', 'v', 'a', 'i', 'c', 'i', 'u']], [.lit ['i', 'n', ' '], .ref 1, .lit [' ', 'w', 'e', 'e', 'k']]),
    (.seqs [.lit ['p', 'o', ' '], .grp 1 (.number), .lit [' ', 's', 'a', 'v', 'a', 'i', 't', 'e', 's']], [.lit ['i', 'n', ' '], .ref 1, .lit [' ', 'w', 'e', 'e', 'k']]),
    (.seqs [.lit ['p', 'o', ' '], .grp 1 (.number), .lit [' ', 's', 'e', 'k', 'u', 'n', 'd', 'e', 's']], [.lit ['i', 'n', ' '], .ref 1, .lit [' ', 's', 'e', 'c', 'o', 'n', 'd']]),
    (.seqs [.lit ['p', 'o', ' '], .grp 1 (.number), .lit [' ', 'v', 'a', 'l', 'a', 'n', 'd', 'o', 's']], [.lit ['i', 'n', ' '], .ref 1, .lit [' ', 'h', 'o', 'u', 'r']]),
    (.seqs [.lit ['p', 'r', 'i', 'e', 's', ' '], .grp 1 (.number), .lit [' ', 'd', 'i', 'e', 'n', 'a']], [.ref 1, .lit [' ', 'd', 'a', 'y', ' ', 'a', 'g', 'o']]),
    (.seqs [.lit ['p', 'r', 'i', 'e', 's', ' '], .grp 1 (.number), .lit [' ', 'd', 'i', 'e', 'n', 'u']], [.ref 1, .lit [' ', 'd', 'a', 'y', ' ', 'a', 'g', 'o']]),
    (.seqs [.lit ['p', 'r', 'i', 'e', 's', ' '], .grp 1 (.number), .lit [' ', 'm', 'e', 't', 'u', 's']], [.ref 1, .lit [' ', 'y', 'e', 'a', 'r', ' ', 'a', 'g', 'o']]),
    (.seqs [.lit ['p', 'o', ' '], .grp 1 (.number), .lit [' ', 'm', 'e', 'n', 'e', 's', 'i', 'o']], [.lit ['i', 'n', ' '], .ref 1, .lit [' ', 'm', 'o', 'n', 't', 'h']]),
    (.seqs [.lit ['p', 'o', ' '], .grp 1 (.number), .lit [' ', 'm', 'e', 'n', 'e', 's', 'i', 'u']], [.lit ['i', 'n', ' '], .ref 1, .lit [' ', 'm', 'o', 'n', 't', 'h']]),
    (.seqs [.lit ['p', 'o', ' '], .grp 1 (.number), .lit [' ', 'm', 'i', 'n', 'u', 'c', 'i', 'u']], [.lit ['i', 'n', ' '], .ref 1, .lit [' ', 'm', 'i', 'n', 'u', 't', 'e']]),
    (.seqs [.lit ['p', 'o', ' '], .grp 1 (.number), .lit [' ', 'm', 'i', 'n', 'u', 't', 'e', 's']], [.lit ['i', 'n', ' '], .ref 1, .lit [' ', 'm', 'i', 'n', 'u', 't', 'e']]),
    (.seqs [.lit ['p', 'o', ' '], .grp 1 (.number), .lit [' ', 'v', 'a', 'l', 'a', 'n', 'd', 'u']], [.lit ['i', 'n', ' '], .ref 1, .lit [' ', 'h', 'o', 'u', 'r']]),
    (.seqs [.lit ['p', 'r', 'i', 'e', 's', ' '], .grp 1 (.number), .lit [' ', 'm', 'e', 't', 'u']], [.ref 1, .lit [' ', 'y', 'e', 'a', 'r', ' ', 'a', 'g', 'o']]),
    (.seqs [.lit ['p', 'o', ' '], .grp 1 (.number), .lit [' ', 'd', 'i', 'e', 'n', 'o', 's']], [.lit ['i', 'n', ' '], .ref 1, .lit [' ', 'd', 'a', 'y']]),
    (.seqs [.lit ['p', 'r', 'i', 'e', 's', ' '], .grp 1 (.number), .lit [' ', 'm', 'e', 'n']], [.ref 1, .lit [' ', 'm', 'o', 'n', 't', 'h', ' ', 'a', 'g', 'o']]),
    (.seqs [.lit ['p', 'r', 'i', 'e', 's', ' '], .grp 1 (.number), .lit [' ', 'm', 'i', 'n']], [.ref 1, .lit [' ', 'm', 'i', 'n', 'u', 't', 'e', ' ', 'a', 'g', 'o']]),
    (.seqs [.lit ['p', 'r', 'i', 'e', 's', ' '], .grp 1 (.number), .lit [' ', 's', 'a', 'v']], [.ref 1, .lit [' ', 'w', 'e', 'e', 'k', ' ', 'a', 'g', 'o']]),
    (.seqs [.lit ['p', 'r', 'i', 'e', 's', ' '], .grp 1 (.number), .lit [' ', 's', 'e', 'k']], [.ref 1, .lit [' ', 's', 'e', 'c', 'o', 'n', 'd', ' ', 'a', 'g', 'o']]),
    (.seqs [.lit ['p', 'r', 'i', 'e', 's', ' '], .grp 1 (.number), .lit [' ', 'v', 'a', 'l']], [.ref 1, .lit [' ', 'h', 'o', 'u', 'r', ' ', 'a', 'g', 'o']]),
    (.seqs [.lit ['p', 'o', ' '], .grp 1 (.number), .lit [' ', 'd', 'i', 'e', 'n', 'u']], [.lit ['i', 'n', ' '], .ref 1, .lit [' ', 'd', 'a', 'y']]),
    (.seqs [.lit ['p', 'o', ' '], .grp 1 (.number), .lit [' ', 'm', 'e', 't', 'u']], [.lit ['i', 'n', ' '], .ref 1, .lit [' ', 'y', 'e', 'a', 'r']]),
    (.seqs [.lit ['p', 'r', 'i', 'e', 's', ' '], .grp 1 (.number), .lit [' ', 'd']], [.ref 1, .lit [' ', 'd', 'a', 'y', ' ', 'a', 'g', 'o']]),
    (.seqs [.lit ['p', 'r', 'i', 'e', 's', ' '], .grp 1 (.number), .lit [' ', 'm']], [.ref 1, .lit [' ', 'y', 'e', 'a', 'r', ' ', 'a', 'g', 'o']]),
    (.seqs [.lit ['p', 'r', 'i', 'e', 's', ' '], .grp 1 (.number), .lit [' ', 's']], [.ref 1, .lit [' ', 's', 'e', 'c', 'o', 'n', 'd', ' ', 'a', 'g', 'o']]),
    (.seqs [.lit ['p', 'o', ' '], .grp 1 (.number), .lit [' ', 'm', 'e', 'n']], [.lit ['i', 'n', ' '], .ref 1, .lit [' ', 'm', 'o', 'n', 't', 'h']]),
    (.seqs [.lit ['p', 'o', ' '], .grp 1 (.number), .lit [' ', 'm', 'i', 'n']], [.lit ['i', 'n', ' '], .ref 1, .lit [' ', 'm', 'i', 'n', 'u', 't', 'e']]),
    (.seqs [.lit ['p', 'o', ' '], .grp 1 (.number), .lit [' ', 's', 'a', 'v']], [.lit ['i', 'n', ' '], .ref 1, .lit [' ', 'w', 'e', 'e', 'k']]),
    (.seqs [.lit ['p', 'o', ' '], .grp 1 (.number), .lit [' ', 's', 'e', 'k']], [.lit ['i', 'n', ' '], .ref 1, .lit [' ', 's', 'e', 'c', 'o', 'n', 'd']]),
    (.seqs [.lit ['p', 'o', ' '], .grp 1 (.number), .lit [' ', 'v', 'a', 'l']], [.lit ['i', 'n', ' '], .ref 1, .lit [' ', 'h', 'o', 'u', 'r']]),
    (.seqs [.lit ['p', 'o', ' '], .grp 1 (.number), .lit [' ', 'd']], [.lit ['i', 'n', ' '], .ref 1, .lit [' ', 'd', 'a', 'y']]),
    (.seqs [.lit ['p', 'o', ' '], .grp 1 (.number), .lit [' ', 'm']], [.lit ['i', 'n', ' '], .ref 1, .lit [' ', 'y', 'e', 'a', 'r']]),
    (.seqs [.lit ['p', 'o', ' '], .grp 1 (.number), .lit [' ', 's']], [.lit ['i', 'n', ' '], .ref 1, .lit [' ', 's', 'e', 'c', 'o', 'n', 'd']])],
  rxCombined := some (.seqs [.grp 1 (.alts [.bos, .cls true [.letter, .mark, .digit], .lit ['_']]), .grp 2 (.alts [.seqs [.lit ['p', 'r', 'i', 'e', 's', ' '], .number, .lit [' ', 's', 'e', 'k', 'u', 'n', 'd', 'z', 'i', 'u']], .seqs [.lit ['p', 'r', 'i', 'e', 's', ' '], .number, .lit [' ', 's', 'a', 'v', 'a', 'i', 'c', 'i', 'u']], .seqs [.lit ['p', 'r', 'i', 'e', 's', ' '], .number, .lit [' ', 'm', 'e', 'n', 'e', 's', 'i', 'u']], .seqs [.lit ['p', 'r', 'i', 'e', 's', ' '], .number, .lit [' ', 'm', 'i', 'n', 'u', 'c', 'i', 'u']], .seqs [.lit ['p', 'r', 'i', 'e', 's', ' '], .number, .lit [' ', 's', 'a', 'v', 'a', 'i', 't', 'e']], .seqs [.lit ['p', 'r', 'i', 'e', 's', ' '], .number, .lit [' ', 's', 'e', 'k', 'u', 'n', 'd', 'e']], .seqs [.lit ['p', 'r', 'i', 'e', 's', ' '], .number, .lit [' ', 'v', 'a', 'l', 'a', 'n', 'd', 'a']], .seqs [.lit ['p', 'r', 'i', 'e', 's', ' '], .number, .lit [' ', 'v', 'a', 'l', 'a', 'n', 'd', 'u']], .seqs [.lit ['p', 'o', ' '], .number, .lit [' ', 's', 'e', 'k', 'u', 'n', 'd', 'z', 'i', 'u']], .seqs [.lit ['p', 'r', 'i', 'e', 's', ' '], .number, .lit [' ', 'm', 'e', 'n', 'e', 's', 'i']], .seqs [.lit ['p', 'r', 'i', 'e', 's', ' '], .number, .lit [' ', 'm', 'i', 'n', 'u', 't', 'e']], .seqs [.lit ['p', 'o', ' '], .number, .lit [' ', 's', 'a', 'v', 'a', 'i', 'c', 'i', 'u']], .seqs [.lit ['p', 'o', ' '], .number, .lit [' ', 's', 'a', 'v', 'a', 'i', 't', 'e', 's']], .seqs [.lit ['p', 'o', ' '], .number, .lit [' ', 's', 'e', 'k', 'u', 'n', 'd', 'e', 's']], .seqs [.lit ['p', 'o', ' '], .number, .lit [' ', 'v', 'a', 'l', 'a', 'n', 'd', 'o', 's']], .seqs [.lit ['p', 'r', 'i', 'e', 's', ' '], .number, .lit [' ', 'd', 'i', 'e', 'n', 'a']], .seqs [.lit ['p', 'r', 'i', 'e', 's', ' '], .number, .lit [' ', 'd', 'i', 'e', 'n', 'u']], .seqs [.lit ['p', 'r', 'i', 'e', 's', ' '], .number, .lit [' ', 'm', 'e', 't', 'u', 's']], .seqs [.lit ['p', 'o', ' '], .number, .lit [' ', 'm', 'e', 'n', 'e', 's', 'i', 'o']], .seqs [.lit ['p', 'o', ' '], .number, .lit [' ', 'm', 'e', 'n', 'e', 's', 'i', 'u']], .seqs [.lit ['p', 'o', ' '], .number, .lit [' ', 'm', 'i', 'n', 'u', 'c', 'i', 'u']], .seqs [.lit ['p', 'o', ' '], .number, .lit [' ', 'm', 'i', 'n', 'u', 't', 'e', 's']], .seqs [.lit ['p', 'o', ' '], .number, .lit [' ', 'v', 'a', 'l', 'a', 'n', 'd', 'u']], .seqs [.lit ['p', 'r', 'i', 'e', 's', ' '], .number, .lit [' ', 'm', 'e', 't', 'u']], .seqs [.lit ['p', 'o', ' '], .number, .lit [' ', 'd', 'i', 'e', 'n', 'o', 's']], .seqs [.lit ['p', 'r', 'i', 'e', 's', ' '], .number, .lit [' ', 'm', 'e', 'n']], .seqs [.lit ['p', 'r', 'i', 'e', 's', ' '], .number, .lit [' ', 'm', 'i', 'n']], .seqs [.lit ['p', 'r', 'i', 'e', 's', ' '], .number, .lit [' ', 's', 'a', 'v']], .seqs [.lit ['p', 'r', 'i', 'e', 's', ' '], .number, .lit [' ', 's', 'e', 'k']], .seqs [.lit ['p', 'r', 'i', 'e', 's', ' '], .number, .lit [' ', 'v', 'a', 'l']], .seqs [.lit ['p', 'o', ' '], .number, .lit [' ', 'd', 'i', 'e', 'n', 'u']], .seqs [.lit ['p', 'o', ' '], .number, .lit [' ', 'm', 'e', 't', 'u']], .seqs [.lit ['p', 'r', 'i', 'e', 's', ' '], .number, .lit [' ', 'd']], .seqs [.lit ['p', 'r', 'i', 'e', 's', ' '], .number, .lit [' ', 'm']], .seqs [.lit ['p', 'r', 'i', 'e', 's', ' '], .number, .lit [' ', 's']], .seqs [.lit ['p', 'o', ' '], .number, .lit [' ', 'm', 'e', 'n']], .seqs [.lit ['p', 'o', ' '], .number, .lit [' ', 'm', 'i', 'n']], .seqs [.lit ['p', 'o', ' '], .number, .lit [' ', 's', 'a', 'v']], .seqs [.lit ['p', 'o', ' '], .number, .lit [' ', 's', 'e', 'k']], .seqs [.lit ['p', 'o', ' '], .number, .lit [' ', 'v', 'a', 'l']], .seqs [.lit ['p', 'o', ' '], .number, .lit [' ', 'd']], .seqs [.lit ['p', 'o', ' '], .number, .lit [' ', 'm']], .seqs [.lit ['p', 'o', ' '], .number, .lit [' ', 's']]]), .grp 3 (.alts [.eos, .cls true [.letter, .mark, .digit], .lit ['_']])], 3),
  rxExact := some (.seqs [.bos, .grp 1 (.alts [.seqs [.lit ['p', 'r', 'i', 'e', 's', ' '], .number, .lit [' ', 's', 'e', 'k', 'u', 'n', 'd', 'z', 'i', 'u']], .seqs [.lit ['p', 'r', 'i', 'e', 's', ' '], .number, .lit [' ', 's', 'a', 'v', 'a', 'i', 'c', 'i', 'u']], .seqs [.lit ['p', 'r', 'i', 'e', 's', ' '], .number, .lit [' ', 'm', 'e', 'n', 'e', 's', 'i', 'u']], .seqs [.lit ['p', 'r', 'i', 'e', 's', ' '], .number, .lit [' ', 'm', 'i', 'n', 'u', 'c', 'i', 'u']], .seqs [.lit ['p', 'r', 'i', 'e', 's', ' '], .number, .lit [' ', 's', 'a', 'v', 'a', 'i', 't', 'e']], .seqs [.lit ['p', 'r', 'i', 'e', 's', ' '], .number, .lit [' ', 's', 'e', 'k', 'u', 'n', 'd', 'e']], .seqs [.lit ['p', 'r', 'i', 'e', 's', ' '], .number, .lit [' ', 'v', 'a', 'l', 'a', 'n', 'd', 'a']], .seqs [.lit ['p', 'r', 'i', 'e', 's', ' '], .number, .lit [' ', 'v', 'a', 'l', 'a', 'n', 'd', 'u']], .seqs [.lit ['p', 'o', ' '], .number, .lit [' ', 's', 'e', 'k', 'u', 'n', 'd', 'z', 'i', 'u']], .seqs [.lit ['p', 'r', 'i', 'e', 's', ' '], .number, .lit [' ', 'm', 'e', 'n', 'e', 's', 'i']], .seqs [.lit ['p', 'r', 'i', 'e', 's', ' '], .number, .lit [' ', 'm', 'i', 'n', 'u', 't', 'e']], .seqs [.lit ['p', 'o', ' '], .number, .lit [' ', 's', 'a', 'v', 'a', 'i', 'c', 'i', 'u']], .seqs [.lit ['p', 'o', ' '], .number, .lit [' ', 's', 'a', 'v', 'a', 'i', 't', 'e', 's']], .seqs [.lit ['p', 'o', ' '], .number, .lit [' ', 's', 'e', 'k', 'u', 'n', 'd', 'e', 's']], .seqs [.lit ['p', 'o', ' '], .number, .lit [' ', 'v', 'a', 'l', 'a', 'n', 'd', 'o', 's']], .seqs [.lit ['p', 'r', 'i', 'e', 's', ' '], .number, .lit [' ', 'd', 'i', 'e', 'n', 'a']], .seqs [.lit ['p', 'r', 'i', 'e', 's', ' '], .number, .lit [' ', 'd', 'i', 'e', 'n', 'u']], .seqs [.lit ['p', 'r', 'i', 'e', 's', ' '], .number, .lit [' ', 'm', 'e', 't', 'u', 's']], .seqs [.lit ['p', 'o', ' '], .number, .lit [' ', 'm', 'e', 'n', 'e', 's', 'i', 'o']], .seqs [.lit ['p', 'o', ' '], .number, .lit [' ', 'm', 'e', 'n', 'e', 's', 'i', 'u']], .seqs [.lit ['p', 'o', ' '], .number, .lit [' ', 'm', 'i', 'n', 'u', 'c', 'i', 'u']], .seqs [.lit ['p', 'o', ' '], .number, .lit [' ', 'm', 'i', 'n', 'u', 't', 'e', 's']], .seqs [.lit ['p', 'o', ' '], .number, .lit [' ', 'v', 'a', 'l', 'a', 'n', 'd', 'u']], .seqs [.lit ['p', 'r', 'i', 'e', 's', ' '], .number, .lit [' ', 'm', 'e', 't', 'u']], .seqs [.lit ['p', 'o', ' '], .number, .lit [' ', 'd', 'i', 'e', 'n', 'o', 's']], .seqs [.lit ['p', 'r', 'i', 'e', 's', ' '], .number, .lit [' ', 'm', 'e', 'n']], .seqs [.lit ['p', 'r', 'i', 'e', 's', ' '], .number, .lit [' ', 'm', 'i', 'n']], .seqs [.lit ['p', 'r', 'i', 'e', 's', ' '], .number, .lit [' ', 's', 'a', 'v']], .seqs [.lit ['p', 'r', 'i', 'e', 's', ' '], .number, .lit [' ', 's', 'e', 'k']], .seqs [.lit ['p', 'r', 'i', 'e', 's', ' '], .number, .lit [' ', 'v', 'a', 'l']], .seqs [.lit ['p', 'o', ' '], .number, .lit [' ', 'd', 'i', 'e', 'n', 'u']], .seqs [.lit ['p', 'o', ' '], .number, .lit [' ', 'm', 'e', 't', 'u']], .seqs [.lit ['p', 'r', 'i', 'e', 's', ' '], .number, .lit [' ', 'd']], .seqs [.lit ['p', 'r', 'i', 'e', 's', ' '], .number, .lit [' ', 'm']], .seqs [.lit ['p', 'r', 'i', 'e', 's', ' '], .number, .lit [' ', 's']], .seqs [.lit ['p', 'o', ' '], .number, .lit [' ', 'm', 'e', 'n']], .seqs [.lit ['p', 'o', ' '], .number, .lit [' ', 'm', 'i', 'n']], .seqs [.lit ['p', 'o', ' '], .number, .lit [' ', 's', 'a', 'v']], .seqs [.lit ['p', 'o', ' '], .number, .lit [' ', 's', 'e', 'k']], .seqs [.lit ['p', 'o', ' '], .number, .lit [' ', 'v', 'a', 'l']], .seqs [.lit ['p', 'o', ' '], .number, .lit [' ', 'd']], .seqs [.lit ['p', 'o', ' '], .number, .lit [' ', 'm']], .seqs [.lit ['p', 'o', ' '], .number, .lit [' ', 's']]]), .eos]),
  knownWords :=
   [['p', 'r', 'a', 'e', 'j', 'u', 's', 'i', 'a', 'i', 's', ' ', 'm', 'e', 't', 'a', 'i', 's'], ['p', 'r', 'a', 'e', 'j', 'u', 's', 'i', 'a', ' ', 's', 'a', 'v', 'a', 'i', 't', 'e'], ['p', 'r', 'a', 'e', 'j', 'u', 's', 'i', ' ', 'm', 'e', 'n', 'e', 's', 'i'], ['k', 'e', 't', 'v', 'i', 'r', 't', 'a', 'd', 'i', 'e', 'n', 'i', 's'], ['k', 'i', 't', 'a', 'i', 's', ' ', 'm', 'e', 't', 'a', 'i', 's'], ['k', 'i', 't', 'a', ' ', 's', 'a', 'v', 'a', 'i', 't', 'e'], ['p', 'e', 'n', 'k', 't', 'a', 'd', 'i', 'e', 'n', 'i', 's'], ['s', 'i', 'a', 'i', 's', ' ', 'm', 'e', 't', 'a', 'i', 's'], ['t', 'r', 'e', 'c', 'i', 'a', 'd', 'i', 'e', 'n', 'i', 's'], ['a', 'n', 't', 'r', 'a', 'd', 'i', 'e', 'n', 'i', 's'], ['k', 'i', 't', 'a', ' ', 'm', 'e', 'n', 'e', 's', 'i'], ['p', 'i', 'r', 'm', 'a', 'd', 'i', 'e', 'n', 'i', 's'], ['s', 'e', 'k', 'm', 'a', 'd', 'i', 'e', 'n', 'i', 's'], ['s', 'e', 's', 't', 'a', 'd', 'i', 'e', 'n', 'i', 's'], ['s', 'i', 'a', ' ', 's', 'a', 'v', 'a', 'i', 't', 'e'], ['s', 'i', 'a', ' ', 'v', 'a', 'l', 'a', 'n', 'd', 'a'], ['s', 'i', 'a', ' ', 'm', 'i', 'n', 'u', 't', 'e'], ['b', 'a', 'l', 'a', 'n', 'd', 'z', 'i', 'o'], ['l', 'a', 'p', 'k', 'r', 'i', 'c', 'i', 'o'], ['l', 'a', 'p', 'k', 'r', 'i', 't', 'i', 's'], ['p', 'r', 'i', 'e', 's', 'p', 'i', 'e', 't'], ['r', 'u', 'g', 'p', 'j', 'u', 'c', 'i', 'o'], ['r', 'u', 'g', 'p', 'j', 'u', 't', 'i', 's'], ['s', 'i', ' ', 'm', 'e', 'n', 'e', 's', 'i'], ['b', 'a', 'l', 'a', 'n', 'd', 'i', 's'], ['b', 'i', 'r', 'z', 'e', 'l', 'i', 'o'], ['b', 'i', 'r', 'z', 'e', 'l', 'i', 's'], ['g', 'r', 'u', 'o', 'd', 'z', 'i', 'o'], ['r', 'u', 'g', 's', 'e', 'j', 'i', 's'], ['s', 'i', 'a', 'n', 'd', 'i', 'e', 'n'], ['g', 'e', 'g', 'u', 'z', 'e', 's'], ['g', 'r', 'u', 'o', 'd', 'i', 's'], ['r', 'u', 'g', 's', 'e', 'j', 'o'], ['s', 'a', 'v', 'a', 'i', 't', 'e'], ['s', 'e', 'k', 'u', 'n', 'd', 'e'], ['v', 'a', 'l', 'a', 'n', 'd', 'a'], ['v', 'a', 's', 'a', 'r', 'i', 'o'], ['v', 'a', 's', 'a', 'r', 'i', 's'], ['g', 'e', 'g', 'u', 'z', 'e'], ['l', 'i', 'e', 'p', 'o', 's'], ['m', 'i', 'n', 'u', 't', 'e'], ['p', 'o', 'p', 'i', 'e', 't'], ['s', 'a', 'u', 's', 'i', 'o'], ['s', 'a', 'u', 's', 'i', 's'], ['s', 'p', 'a', 'l', 'i', 'o'], ['s', 'p', 'a', 'l', 'i', 's'], ['d', 'a', 'b', 'a', 'r'], ['d', 'i', 'e', 'n', 'a'], ['g', 'r', 'u', 'o', 'd'], ['k', 'o', 'v', 'a', 's'], ['l', 'a', 'p', 'k', 'r'], ['l', 'i', 'e', 'p', 'a'], ['m', 'e', 'n', 'u', 'o'], ['m', 'e', 't', 'a', 'i'], ['r', 'y', 't', 'o', 'j'], ['v', 'a', 'k', 'a', 'r'], ['b', 'i', 'r', 'z'], ['k', 'o', 'v', 'o'], ['l', 'i', 'e', 'p'], ['r', 'u', 'g', 'p'], ['r', 'u', 'g', 's'], ['s', 'a', 'u', 's'], ['s', 'p', 'a', 'l'], ['b', 'a', 'l'], ['g', 'e', 'g'], ['g', 'm', 't'], ['k', 'o', 'v'], ['m', 'e', 'n'], ['m', 'i', 'n'], ['s', 'a', 'v'], ['s', 'e', 'k'], ['u', 't', 'c'], ['v', 'a', 'l'], ['v', 'a', 's'], ['a', 'm'], ['a', 'n'], ['k', 't'], ['p', 'm'], ['p', 'n'], ['p', 'r'], ['s', 'k'], ['s', 't'], ['t', 'r'], [' '], ['\''], ['+'], [','], ['-'], ['.'], ['/'], [':'], [';'], ['@'], ['['], [']'], ['d'], ['h'], ['m'], ['s'], ['z'], ['|']] }

/-- internal/data/lu.go: `lu_Locale`. -/
def luLang : LangData := { luDict with
  knownWords :=
   [['k', 'a', 'b', 'a', 'l', 'a', 's', 'h', 'i', 'p', 'u'], ['k', 'a', 's', 'u', 'n', 's', 'u', 'k', 'u', 's', 'u'], ['t', 'h', 'i', 's', ' ', 'm', 'i', 'n', 'u', 't', 'e'], ['l', 'a', 's', 't', ' ', 'm', 'o', 'n', 't', 'h'], ['n', 'e', 'x', 't', ' ', 'm', 'o', 'n', 't', 'h'], ['t', 'h', 'i', 's', ' ', 'm', 'o', 'n', 't', 'h'], ['k', 'a', 's', 'w', 'e', 'k', 'e', 's', 'e'], ['l', 'a', 's', 't', ' ', 'w', 'e', 'e', 'k'], ['l', 'a', 's', 't', ' ', 'y', 'e', 'a', 'r'], ['l', 'u', 'm', 'u', 'n', 'g', 'u', 'l', 'u'], ['l', 'u', 't', 'o', 'n', 'g', 'o', 'l', 'o'], ['n', 'e', 'x', 't', ' ', 'w', 'e', 'e', 'k'], ['n', 'e', 'x', 't', ' ', 'y', 'e', 'a', 'r'], ['t', 'h', 'i', 's', ' ', 'h', 'o', 'u', 'r'], ['t', 'h', 'i', 's', ' ', 'w', 'e', 'e', 'k'], ['t', 'h', 'i', 's', ' ', 'y', 'e', 'a', 'r'], ['m', 'a', 'k', 'e', 'l', 'e', 'l', 'a'], ['t', 's', 'h', 'i', 'd', 'i', 'm', 'u'], ['k', 'a', 's', 'u', 'n', 's', 'u'], ['l', 'u', 'b', 'i', 'n', 'g', 'u'], ['l', 'u', 'f', 'u', 'i', 'm', 'i'], ['l', 'u', 'm', 'i', 'n', 'g', 'u'], ['l', 'u', 'n', 'g', 'u', 'd', 'i'], ['l', 'u', 's', 'h', 'i', 'k', 'a'], ['c', 'i', 'o', 'n', 'g', 'o'], ['d', 'i', 'l', 'o', 'l', 'o'], ['d', 'i', 't', 'u', 'k', 'u'], ['l', 'u', 'i', 's', 'h', 'i'], ['l', 'u', 's', 'o', 'l', 'o'], ['m', 'a', 'l', 'a', 'b', 'a'], ['n', 'd', 'a', 'a', 'y', 'a'], ['n', 'd', 'a', 'n', 'g', 'u'], ['n', 'g', 'o', 'n', 'd', 'o'], ['n', 'g', 'o', 'v', 'y', 'a'], ['n', 'k', 'o', 'd', 'y', 'a'], ['c', 'i', 's', 'w', 'a'], ['d', 'i', 'n', 'd', 'a'], ['m', 'u', 'u', 'y', 'a'], ['n', 'j', 'o', 'w', 'a'], ['d', 'i', 'b', 'a'], ['l', 'e', 'l', 'u'], ['l', 'u', 's', 'h'], ['c', 'i', 'o'], ['c', 'i', 's'], ['g', 'm', 't'], ['k', 'a', 'b'], ['k', 'a', 's'], ['l', 'u', 'b'], ['l', 'u', 'f'], ['l', 'u', 'i'], ['l', 'u', 'm'], ['l', 'u', 'n'], ['l', 'u', 's'], ['l', 'u', 't'], ['m', 'u', 'u'], ['n', 'd', 'g'], ['n', 'd', 'y'], ['n', 'g', 'v'], ['n', 'j', 'w'], ['n', 'k', 'o'], ['n', 'o', 'w'], ['u', 't', 'c'], ['a', 'm'], ['p', 'm'], [' '], ['\''], ['+'], [','], ['-'], ['.'], ['/'], [':'], [';'], ['@'], ['['], [']'], ['z'], ['|']] }

/-- internal/data/luo.go: `luo_Locale`. -/
def luoLang : LangData := { luoDict with
  knownWords :=
   [['d', 'w', 'e', ' ', 'm', 'a', 'r', ' ', 'a', 'p', 'a', 'r', ' ', 'g', 'i', ' ', 'a', 'r', 'i', 'y', 'o'], ['d', 'w', 'e', ' ', 'm', 'a', 'r', ' ', 'g', 'i', ' ', 'a', 'c', 'h', 'i', 'e', 'l'], ['d', 'w', 'e', ' ', 'm', 'a', 'r', ' ', 'a', 'b', 'i', 'r', 'i', 'y', 'o'], ['d', 'w', 'e', ' ', 'm', 'a', 'r', ' ', 'a', 'n', 'g', '\'', 'w', 'e', 'n'], ['d', 'w', 'e', ' ', 'm', 'a', 'r', ' ', 'a', 'u', 'c', 'h', 'i', 'e', 'l'], ['n', 'y', 'i', 'r', 'i', 'r', 'i', ' ', 'm', 'a', 'r', ' ', 's', 'a', 'a'], ['d', 'w', 'e', ' ', 'm', 'a', 'r', ' ', 'a', 'c', 'h', 'i', 'e', 'l'], ['d', 'w', 'e', ' ', 'm', 'a', 'r', ' ', 'o', 'c', 'h', 'i', 'k', 'o'], ['d', 'w', 'e', ' ', 'm', 'a', 'r', ' ', 'a', 'b', 'i', 'c', 'h'], ['d', 'w', 'e', ' ', 'm', 'a', 'r', ' ', 'a', 'b', 'o', 'r', 'o'], ['d', 'w', 'e', ' ', 'm', 'a', 'r', ' ', 'a', 'r', 'i', 'y', 'o'], ['d', 'w', 'e', ' ', 'm', 'a', 'r', ' ', 'a', 'd', 'e', 'k'], ['d', 'w', 'e', ' ', 'm', 'a', 'r', ' ', 'a', 'p', 'a', 'r'], ['t', 'i', 'c', 'h', ' ', 'a', 'n', 'g', '\'', 'w', 'e', 'n'], ['t', 'h', 'i', 's', ' ', 'm', 'i', 'n', 'u', 't', 'e'], ['l', 'a', 's', 't', ' ', 'm', 'o', 'n', 't', 'h'], ['n', 'e', 'x', 't', ' ', 'm', 'o', 'n', 't', 'h'], ['t', 'h', 'i', 's', ' ', 'm', 'o', 'n', 't', 'h'], ['t', 'i', 'c', 'h', ' ', 'a', 'b', 'i', 'c', 'h'], ['t', 'i', 'c', 'h', ' ', 'a', 'r', 'i', 'y', 'o'], ['l', 'a', 's', 't', ' ', 'w', 'e', 'e', 'k'], ['l', 'a', 's', 't', ' ', 'y', 'e', 'a', 'r'], ['n', 'e', 'x', 't', ' ', 'w', 'e', 'e', 'k'], ['n', 'e', 'x', 't', ' ', 'y', 'e', 'a', 'r'], ['t', 'h', 'i', 's', ' ', 'h', 'o', 'u', 'r'], ['t', 'h', 'i', 's', ' ', 'w', 'e', 'e', 'k'], ['t', 'h', 'i', 's', ' ', 'y', 'e', 'a', 'r'], ['t', 'i', 'c', 'h', ' ', 'a', 'd', 'e', 'k'], ['w', 'u', 'o', 'k', ' ', 't', 'i', 'c', 'h'], ['c', 'h', 'i', 'e', 'n', 'g', '\''], ['j', 'u', 'm', 'a', 'p', 'i', 'l'], ['k', 'a', 'w', 'u', 'o', 'n', 'o'], ['d', 'a', 'k', 'i', 'k', 'a'], ['n', 'g', 'e', 's', 'o'], ['n', 'y', 'o', 'r', 'o'], ['h', 'i', 'g', 'a'], ['j', 'u', 'm', 'a'], ['k', 'i', 'n', 'y'], ['d', 'a', 'b'], ['d', 'a', 'c'], ['d', 'a', 'd'], ['d', 'a', 'g'], ['d', 'a', 'h'], ['d', 'a', 'n'], ['d', 'a', 'o'], ['d', 'a', 'p'], ['d', 'a', 'r'], ['d', 'a', 'u'], ['d', 'g', 'i'], ['d', 'o', 'c'], ['d', 'w', 'e'], ['g', 'm', 't'], ['j', 'm', 'p'], ['n', 'g', 's'], ['n', 'o', 'w'], ['s', 'a', 'a'], ['t', 'a', 'b'], ['t', 'a', 'd'], ['t', 'a', 'n'], ['t', 'a', 'r'], ['u', 't', 'c'], ['w', 'u', 't'], ['a', 'm'], ['o', 'd'], ['o', 't'], ['p', 'm'], [' '], ['\''], ['+'], [','], ['-'], ['.'], ['/'], [':'], [';'], ['@'], ['['], [']'], ['z'], ['|']] }

/-- internal/data/luy.go: `luy_Locale`. -/
def luyLang : LangData := { luyDict with
  knownWords :=
   [['m', 'u', 'r', 'w', 'a', ' ', 'w', 'a', ' ', 'k', 'a', 't', 'a', 'n', 'o'], ['m', 'u', 'r', 'w', 'a', ' ', 'w', 'a', ' ', 'k', 'a', 'n', 'n', 'e'], ['t', 'h', 'i', 's', ' ', 'm', 'i', 'n', 'u', 't', 'e'], ['l', 'a', 's', 't', ' ', 'm', 'o', 'n', 't', 'h'], ['n', 'e', 'x', 't', ' ', 'm', 'o', 'n', 't', 'h'], ['t', 'h', 'i', 's', ' ', 'm', 'o', 'n', 't', 'h'], ['l', 'a', 's', 't', ' ', 'w', 'e', 'e', 'k'], ['l', 'a', 's', 't', ' ', 'y', 'e', 'a', 'r'], ['n', 'e', 'x', 't', ' ', 'w', 'e', 'e', 'k'], ['n', 'e', 'x', 't', ' ', 'y', 'e', 'a', 'r'], ['t', 'h', 'i', 's', ' ', 'h', 'o', 'u', 'r'], ['t', 'h', 'i', 's', ' ', 'w', 'e', 'e', 'k'], ['t', 'h', 'i', 's', ' ', 'y', 'e', 'a', 'r'], ['f', 'e', 'b', 'r', 'u', 'a', 'r', 'i'], ['j', 'u', 'm', 'a', 'm', 'o', 's', 'i'], ['j', 'u', 'm', 'a', 'p', 'i', 'r', 'i'], ['j', 'u', 'm', 'a', 't', 'a', 'n', 'o'], ['j', 'u', 'm', 'a', 't', 'a', 't', 'u'], ['s', 'e', 'p', 't', 'e', 'm', 'b', 'a'], ['d', 'e', 's', 'e', 'm', 'b', 'a'], ['i', 'd', 'a', 'g', 'i', 'k', 'a'], ['j', 'a', 'n', 'u', 'a', 'r', 'i'], ['j', 'u', 'm', 'a', 'n', 'n', 'e'], ['m', 'g', 'o', 'r', 'o', 'v', 'a'], ['n', 'o', 'v', 'e', 'm', 'b', 'a'], ['s', 'e', 'k', 'u', 'n', 'd', 'e'], ['a', 'g', 'o', 's', 't', 'i'], ['a', 'p', 'r', 'i', 'l', 'i'], ['m', 'g', 'a', 'm', 'b', 'a'], ['m', 'u', 'h', 'i', 'g', 'a'], ['o', 'k', 't', 'o', 'b', 'a'], ['r', 'i', 'd', 'i', 'k', 'u'], ['r', 'i', 's', 'i', 'z', 'a'], ['j', 'u', 'l', 'a', 'i'], ['m', 'a', 'c', 'h', 'i'], ['m', 'w', 'e', 'r', 'i'], ['i', 's', 'a', 'a'], ['j', 'u', 'n', 'i'], ['l', 'e', 'r', 'o'], ['a', 'g', 'o'], ['a', 'p', 'r'], ['d', 'e', 's'], ['f', 'e', 'b'], ['g', 'm', 't'], ['j', 'a', 'n'], ['j', 'u', 'l'], ['j', 'u', 'n'], ['m', 'a', 'r'], ['m', 'e', 'i'], ['n', 'o', 'v'], ['n', 'o', 'w'], ['o', 'k', 't'], ['s', 'e', 'p'], ['u', 't', 'c'], ['a', 'l'], ['a', 'm'], ['i', 'j'], ['j', '1'], ['j', '2'], ['j', '3'], ['j', '4'], ['j', '5'], ['p', 'm'], [' '], ['\''], ['+'], [','], ['-'], ['.'], ['/'], [':'], [';'], ['@'], ['['], [']'], ['z'], ['|']] }

/-- internal/data/lv.go: `lv_Locale`. -/
def lvLang : LangData := { lvDict with
  relativeRegexes :=
   [(.seqs [.lit ['p', 'i', 'r', 'm', 's', ' '], .grp 1 (.number), .lit [' ', 'm', 'e', 'n', 'e', 's', 'i', 'e', 'm']], [.ref 1, .lit [' ', 'm', 'o', 'n', 't', 'h', ' ', 'a', 'g', 'o']]),
    (.seqs [.lit ['p', 'i', 'r', 'm', 's', ' '], .grp 1 (.number), .lit [' ', 's', 'e', 'k', 'u', 'n', 'd', 'e', 'm']], [.ref 1, .lit [' ', 's', 'e', 'c', 'o', 'n', 'd', ' ', 'a', 'g', 'o']]),
    (.seqs [.lit ['p', 'i', 'r', 'm', 's', ' '], .grp 1 (.number), .lit [' ', 's', 'e', 'k', 'u', 'n', 'd', 'e', 's']], [.ref 1, .lit [' ', 's', 'e', 'c', 'o', 'n', 'd', ' ', 'a', 'g', 'o']]),
    (.seqs [.lit ['p', 'i', 'r', 'm', 's', ' '], .grp 1 (.number), .lit [' ', 'm', 'i', 'n', 'u', 't', 'e', 'm']], [.ref 1, .lit [' ', 'm', 'i', 'n', 'u', 't', 'e', ' ', 'a', 'g', 'o']]),
    (.seqs [.lit ['p', 'i', 'r', 'm', 's', ' '], .grp 1 (.number), .lit [' ', 'm', 'i', 'n', 'u', 't', 'e', 's']], [.ref 1, .lit [' ', 'm', 'i', 'n', 'u', 't', 'e', ' ', 'a', 'g', 'o']]),
    (.seqs [.lit ['p', 'i', 'r', 'm', 's', ' '], .grp 1 (.number), .lit [' ', 'n', 'e', 'd', 'e', 'l', 'a', 'm']], [.ref 1, .lit [' ', 'w', 'e', 'e', 'k', ' ', 'a', 'g', 'o']]),
    (.seqs [.lit ['p', 'i', 'r', 'm', 's', ' '], .grp 1 (.number), .lit [' ', 'n', 'e', 'd', 'e', 'l', 'a', 's']], [.ref 1, .lit [' ', 'w', 'e', 'e', 'k', ' ', 'a', 'g', 'o']]),
    (.seqs [.lit ['p', 'i', 'r', 'm', 's', ' '], .grp 1 (.number), .lit [' ', 's', 't', 'u', 'n', 'd', 'a', 'm']], [.ref 1, .lit [' ', 'h', 'o', 'u', 'r', ' ', 'a', 'g', 'o']]),
    (.seqs [.lit ['p', 'i', 'r', 'm', 's', ' '], .grp 1 (.number), .lit [' ', 's', 't', 'u', 'n', 'd', 'a', 's']], [.ref 1, .lit [' ', 'h', 'o', 'u', 'r', ' ', 'a', 'g', 'o']]),
    (.seqs [.lit ['p', 'e', 'c', ' '], .grp 1 (.number), .lit [' ', 'm', 'e', 'n', 'e', 's', 'i', 'e', 'm']], [.lit ['i', 'n', ' '], .ref 1, .lit [' ', 'm', 'o', 'n', 't', 'h']]),
    (.seqs [.lit ['p', 'e', 'c', ' '], .grp 1 (.number), .lit [' ', 's', 'e', 'k', 'u', 'n', 'd', 'e', 'm']], [.lit ['i', 'n', ' '], .ref 1, .lit [' ', 's', 'e', 'c', 'o', 'n', 'd']]),
    (.seqs [.lit ['p', 'e', 'c', ' '], .grp 1 (.number), .lit [' ', 's', 'e', 'k', 'u', 'n', 'd', 'e', 's']], [.lit ['i', 'n', ' '], .ref 1, .lit [' ', 's', 'e', 'c', 'o', 'n', 'd']]),
    (.seqs [.lit ['p', 'i', 'r', 'm', 's', ' '], .grp 1 (.number), .lit [' ', 'd', 'i', 'e', 'n', 'a', 'm']], [.ref 1, .lit [' ', 'd', 'a', 'y', ' ', 'a', 'g', 'o']]),
    (.seqs [.lit ['p', 'i', 'r', 'm', 's', ' '], .grp 1 (.number), .lit [' ', 'd', 'i', 'e', 'n', 'a', 's']], [.ref 1, .lit [' ', 'd', 'a', 'y', ' ', 'a', 'g', 'o']]),
    (.seqs [.lit ['p', 'i', 'r', 'm', 's', ' '], .grp 1 (.number), .lit [' ', 'g', 'a', 'd', 'i', 'e', 'm']], [.ref 1, .lit [' ', 'y', 'e', 'a', 'r', ' ', 'a', 'g', 'o']]),
    (.seqs [.lit ['p', 'i', 'r', 'm', 's', ' '], .grp 1 (.number), .lit [' ', 'm', 'e', 'n', 'e', 's', 'a']], [.ref 1, .lit [' ', 'm', 'o', 'n', 't', 'h', ' ', 'a', 'g', 'o']]),
    (.seqs [.lit ['p', 'e', 'c', ' '], .grp 1 (.number), .lit [' ', 'm', 'i', 'n', 'u', 't', 'e', 'm']], [.lit ['i', 'n', ' '], .ref 1, .lit [' ', 'm', 'i', 'n', 'u', 't', 'e']]),
    (.seqs [.lit ['p', 'e', 'c', ' '], .grp 1 (.number), .lit [' ', 'm', 'i', 'n', 'u', 't', 'e', 's']], [.lit ['i', 'n', ' '], .ref 1, .lit [' ', 'm', 'i', 'n', 'u', 't', 'e']]),
    (.seqs [.lit ['p', 'e', 'c', ' '], .grp 1 (.number), .lit [' ', 'n', 'e', 'd', 'e', 'l', 'a', 'm']], [.lit ['i', 'n', ' '], .ref 1, .lit [' ', 'w', 'e', 'e', 'k']]),
    (.seqs [.lit ['p', 'e', 'c', ' '], .grp 1 (.number), .lit [' ', 'n', 'e', 'd', 'e', 'l', 'a', 's']], [.lit ['i', 'n', ' '], .ref 1, .lit [' ', 'w', 'e', 'e', 'k']]),
    (.seqs [.lit ['p', 'e', 'c', ' '], .grp 1 (.number), .lit [' ', 's', 't', 'u', 'n', 'd', 'a', 'm']], [.lit ['i', 'n', ' '], .ref 1, .lit [' ', 'h', 'o', 'u', 'r']]),
    (.seqs [.lit ['p', 'e', 'c', ' '], .grp 1 (.number), .lit [' ', 's', 't', 'u', 'n', 'd', 'a', 's']], [.lit ['i', 'n', ' '], .ref 1, .lit [' ', 'h', 'o', 'u', 'r']]),
    (.seqs [.lit ['p', 'e', 'c', ' '], .grp 1 (.number), .lit [' ', 'd', 'i', 'e', 'n', 'a', 'm']], [.lit ['i', 'n', ' '], .ref 1, .lit [' ', 'd', 'a', 'y']]),
    (.seqs [.lit ['p', 'e', 'c', ' '], .grp 1 (.number), .lit [' ', 'd', 'i', 'e', 'n', 'a', 's']], [.lit ['i', 'n', ' '], .ref 1, .lit [' ', 'd', 'a', 'y']]),
    (.seqs [.lit ['p', 'e', 'c', ' '], .grp 1 (.number), .lit [' ', 'g', 'a', 'd', 'i', 'e', 'm']], [.lit ['i', 'n', ' '], .ref 1, .lit [' ', 'y', 'e', 'a', 'r']]),
    (.seqs [.lit ['p', 'e', 'c', ' '], .grp 1 (.number), .lit [' ', 'm', 'e', 'n', 'e', 's', 'a']], [.lit ['i', 'n', ' '], .ref 1, .lit [' ', 'm', 'o', 'n', 't', 'h']]),
    (.seqs [.lit ['p', 'i', 'r', 'm', 's', ' '], .grp 1 (.number), .lit [' ', 'g', 'a', 'd', 'a']], [.ref 1, .lit [' ', 'y', 'e', 'a', 'r', ' ', 'a', 'g', 'o']]),
    (.seqs [.lit ['p', 'i', 'r', 'm', 's', ' '], .grp 1 (.number), .lit [' ', 'm', 'e', 'n']], [.ref 1, .lit [' ', 'm', 'o', 'n', 't', 'h', ' ', 'a', 'g', 'o']]),
    (.seqs [.lit ['p', 'i', 'r', 'm', 's', ' '], .grp 1 (.number), .lit [' ', 'm', 'i', 'n']], [.ref 1, .lit [' ', 'm', 'i', 'n', 'u', 't', 'e', ' ', 'a', 'g', 'o']]),
    (.seqs [.lit ['p', 'i', 'r', 'm', 's', ' '], .grp 1 (.number), .lit [' ', 'n', 'e', 'd']], [.ref 1, .lit [' ', 'w', 'e', 'e', 'k', ' ', 'a', 'g', 'o']]),
    (.seqs [.lit ['p', 'i', 'r', 'm', 's', ' '], .grp 1 (.number), .lit [' ', 's', 'e', 'k']], [.ref 1, .lit [' ', 's', 'e', 'c', 'o', 'n', 'd', ' ', 'a', 'g', 'o']]),
    (.seqs [.lit ['p', 'e', 'c', ' '], .grp 1 (.number), .lit [' ', 'g', 'a', 'd', 'a']], [.lit ['i', 'n', ' '], .ref 1, .lit [' ', 'y', 'e', 'a', 'r']]),
    (.seqs [.lit ['p', 'i', 'r', 'm', 's', ' '], .grp 1 (.number), .lit [' ', 's', 't']], [.ref 1, .lit [' ', 'h', 'o', 'u', 'r', ' ', 'a', 'g', 'o']]),
    (.seqs [.lit ['p', 'e', 'c', ' '], .grp 1 (.number), .lit [' ', 'm', 'e', 'n']], [.lit ['i', 'n', ' '], .ref 1, .lit [' ', 'm', 'o', 'n', 't', 'h']]),
    (.seqs [.lit ['p', 'e', 'c', ' '], .grp 1 (.number), .lit [' ', 'm', 'i', 'n']], [.lit ['i', 'n', ' '], .ref 1, .lit [' ', 'm', 'i', 'n', 'u', 't', 'e']]),
    (.seqs [.lit ['p', 'e', 'c', ' '], .grp 1 (.number), .lit [' ', 'n', 'e', 'd']], [.lit ['i', 'n', ' '], .ref 1, .lit [' ', 'w', 'e', 'e', 'k']]),
    (.seqs [.lit ['p', 'e', 'c', ' '], .grp 1 (.number), .lit [' ', 's', 'e', 'k']], [.lit ['i', 'n', ' '], .ref 1, .lit [' ', 's', 'e', 'c', 'o', 'n', 'd']]),
    (.seqs [.lit ['p', 'i', 'r', 'm', 's', ' '], .grp 1 (.number), .lit [' ', 'd']], [.ref 1, .lit [' ', 'd', 'a', 'y', ' ', 'a', 'g', 'o']]),
    (.seqs [.lit ['p', 'i', 'r', 'm', 's', ' '], .grp 1 (.number), .lit [' ', 'g']], [.ref 1, .lit [' ', 'y', 'e', 'a', 'r', ' ', 'a', 'g', 'o']]),
    (.seqs [.lit ['p', 'i', 'r', 'm', 's', ' '], .grp 1 (.number), .lit [' ', 'h']], [.ref 1, .lit [' ', 'h', 'o', 'u', 'r', ' ', 'a', 'g', 'o']]),
    (.seqs [.lit ['p', 'i', 'r', 'm', 's', ' '], .grp 1 (.number), .lit [' ', 's']], [.ref 1, .lit [' ', 's', 'e', 'c', 'o', 'n', 'd', ' ', 'a', 'g', 'o']]),
    (.seqs [.lit ['p', 'e', 'c', ' '], .grp 1 (.number), .lit [' ', 's', 't']], [.lit ['i', 'n', ' '], .ref 1, .lit [' ', 'h', 'o', 'u', 'r']]),
    (.seqs [.lit ['p', 'e', 'c', ' '], .grp 1 (.number), .lit [' ', 'd']], [.lit ['i', 'n', ' '], .ref 1, .lit [' ', 'd', 'a', 'y']]),
    (.seqs [.lit ['p', 'e', 'c', ' '], .grp 1 (.number), .lit [' ', 'g']], [.lit ['i', 'n', ' '], .ref 1, .lit [' ', 'y', 'e', 'a', 'r']]),
    (.seqs [.lit ['p', 'e', 'c', ' '], .grp 1 (.number), .lit [' ', 'h']], [.lit ['i', 'n', ' '], .ref 1, .lit [' ', 'h', 'o', 'u', 'r']]),
    (.seqs [.lit ['p', 'e', 'c', ' '], .grp 1 (.number), .lit [' ', 's']], [.lit ['i', 'n', ' '], .ref 1, .lit [' ', 's', 'e', 'c', 'o', 'n', 'd']])],
  rxCombined := some (.seqs [.grp 1 (.alts [.bos, .cls true [.letter, .mark, .digit], .lit ['_']]), .grp 2 (.alts [.seqs [.lit ['p', 'i', 'r', 'm', 's', ' '], .number, .lit [' ', 'm', 'e', 'n', 'e', 's', 'i', 'e', 'm']], .seqs [.lit ['p', 'i', 'r', 'm', 's', ' '], .number, .lit [' ', 's', 'e', 'k', 'u', 'n', 'd', 'e', 'm']], .seqs [.lit ['p', 'i', 'r', 'm', 's', ' '], .number, .lit [' ', 's', 'e', 'k', 'u', 'n', 'd', 'e', 's']], .seqs [.lit ['p', 'i', 'r', 'm', 's', ' '], .number, .lit [' ', 'm', 'i', 'n', 'u', 't', 'e', 'm']], .seqs [.lit ['p', 'i', 'r', 'm', 's', ' '], .number, .lit [' ', 'm', 'i', 'n', 'u', 't', 'e', 's']], .seqs [.lit ['p', 'i', 'r', 'm', 's', ' '], .number, .lit [' ', 'n', 'e', 'd', 'e', 'l', 'a', 'm']], .seqs [.lit ['p', 'i', 'r', 'm', 's', ' '], .number, .lit [' ', 'n', 'e', 'd', 'e', 'l', 'a', 's']], .seqs [.lit ['p', 'i', 'r', 'm', 's', ' '], .number, .lit [' ', 's', 't', 'u', 'n', 'd', 'a', 'm']], .seqs [.lit ['p', 'i', 'r', 'm', 's', ' '], .number, .lit [' ', 's', 't', 'u', 'n', 'd', 'a', 's']], .seqs [.lit ['p', 'e', 'c', ' '], .number, .lit [' ', 'm', 'e', 'n', 'e', 's', 'i', 'e', 'm']], .seqs [.lit ['p', 'e', 'c', ' '], .number, .lit [' ', 's', 'e', 'k', 'u', 'n', 'd', 'e', 'm']], .seqs [.lit ['p', 'e', 'c', ' '], .number, .lit [' ', 's', 'e', 'k', 'u', 'n', 'd', 'e', 's']], .seqs [.lit ['p', 'i', 'r', 'm', 's', ' '], .number, .lit [' ', 'd', 'i', 'e', 'n', 'a', 'm']], .seqs [.lit ['p', 'i', 'r', 'm', 's', ' '], .number, .lit [' ', 'd', 'i', 'e', 'n', 'a', 's']], .seqs [.lit ['p', 'i', 'r', 'm', 's', ' '], .number, .lit [' ', 'g', 'a', 'd', 'i', 'e', 'm']], .seqs [.lit ['p', 'i', 'r', 'm', 's', ' '], .number, .lit [' ', 'm', 'e', 'n', 'e', 's', 'a']], .seqs [.lit ['p', 'e', 'c', ' '], .number, .lit [' ', 'm', 'i', 'n', 'u', 't', 'e', 'm']], .seqs [.lit ['p', 'e', 'c', ' '], .number, .lit [' ', 'm', 'i', 'n', 'u', 't', 'e', 's']], .seqs [.lit ['p', 'e', 'c', ' '], .number, .lit [' ', 'n', 'e', 'd', 'e', 'l', 'a', 'm']], .seqs [.lit ['p', 'e', 'c', ' '], .number, .lit [' ', 'n', 'e', 'd', 'e', 'l', 'a', 's']], .seqs [.lit ['p', 'e', 'c', ' '], .number, .lit [' ', 's', 't', 'u', 'n', 'd', 'a', 'm']], .seqs [.lit ['p', 'e', 'c', ' '], .number, .lit [' ', 's', 't', 'u', 'n', 'd', 'a', 's']], .seqs [.lit ['p', 'e', 'c', ' '], .number, .lit [' ', 'd', 'i', 'e', 'n', 'a', 'm']], .seqs [.lit ['p', 'e', 'c', ' '], .number, .lit [' ', 'd', 'i', 'e', 'n', 'a', 's']], .seqs [.lit ['p', 'e', 'c', ' '], .number, .lit [' ', 'g', 'a', 'd', 'i', 'e', 'm']], .seqs [.lit ['p', 'e', 'c', ' '], .number, .lit [' ', 'm', 'e', 'n', 'e', 's', 'a']], .seqs [.lit ['p', 'i', 'r', 'm', 's', ' '], .number, .lit [' ', 'g', 'a', 'd', 'a']], .seqs [.lit ['p', 'i', 'r', 'm', 's', ' '], .number, .lit [' ', 'm', 'e', 'n']], .seqs [.lit ['p', 'i', 'r', 'm', 's', ' '], .number, .lit [' ', 'm', 'i', 'n']], .seqs [.lit ['p', 'i', 'r', 'm', 's', ' '], .number, .lit [' ', 'n', 'e', 'd']], .seqs [.lit ['p', 'i', 'r', 'm', 's', ' '], .number, .lit [' ', 's', 'e', 'k']], .seqs [.lit ['p', 'e', 'c', ' '], .number, .lit [' ', 'g', 'a', 'd', 'a']], .seqs [.lit ['p', 'i', 'r', 'm', 's', ' '], .number, .lit [' ', 's', 't']], .seqs [.lit ['p', 'e', 'c', ' '], .number, .lit [' ', 'm', 'e', 'n']], .seqs [.lit ['p', 'e', 'c', ' '], .number, .lit [' ', 'm', 'i', 'n']], .seqs [.lit ['p', 'e', 'c', ' '], .number, .lit [' ', 'n', 'e', 'd']], .seqs [.lit ['p', 'e', 'c', ' '], .number, .lit [' ', 's', 'e', 'k']], .seqs [.lit ['p', 'i', 'r', 'm', 's', ' '], .number, .lit [' ', 'd']], .seqs [.lit ['p', 'i', 'r', 'm', 's', ' '], .number, .lit [' ', 'g']], .seqs [.lit ['p', 'i', 'r', 'm', 's', ' '], .number, .lit [' ', 'h']], .seqs [.lit ['p', 'i', 'r', 'm', 's', ' '], .number, .lit [' ', 's']], .seqs [.lit ['p', 'e', 'c', ' '], .number, .lit [' ', 's', 't']], .seqs [.lit ['p', 'e', 'c', ' '], .number, .lit [' ', 'd']], .seqs [.lit ['p', 'e', 'c', ' '], .number, .lit [' ', 'g']], .seqs [.lit ['p', 'e', 'c', ' '], .number, .lit [' ', 'h']], .seqs [.lit ['p', 'e', 'c', ' '], .number, .lit [' ', 's']]]), .grp 3 (.alts [.eos, .cls true [.letter, .mark, .digit], .lit ['_']])], 3),
  rxExact := some (.seqs [.bos, .grp 1 (.alts [.seqs [.lit ['p', 'i', 'r', 'm', 's', ' '], .number, .lit [' ', 'm', 'e', 'n', 'e', 's', 'i', 'e', 'm']], .seqs [.lit ['p', 'i', 'r', 'm', 's', ' '], .number, .lit [' ', 's', 'e', 'k', 'u', 'n', 'd', 'e', 'm']], .seqs [.lit ['p', 'i', 'r', 'm', 's', ' '], .number, .lit [' ', 's', 'e', 'k', 'u', 'n', 'd', 'e', 's']], .seqs [.lit ['p', 'i', 'r', 'm', 's', ' '], .number, .lit [' ', 'm', 'i', 'n', 'u', 't', 'e', 'm']], .seqs [.lit ['p', 'i', 'r', 'm', 's', ' '], .number, .lit [' ', 'm', 'i', 'n', 'u', 't', 'e', 's']], .seqs [.lit ['p', 'i', 'r', 'm', 's', ' '], .number, .lit [' ', 'n', 'e', 'd', 'e', 'l', 'a', 'm']], .seqs [.lit ['p', 'i', 'r', 'm', 's', ' '], .number, .lit [' ', 'n', 'e', 'd', 'e', 'l', 'a', 's']], .seqs [.lit ['p', 'i', 'r', 'm', 's', ' '], .number, .lit [' ', 's', 't', 'u', 'n', 'd', 'a', 'm']], .seqs [.lit ['p', 'i', 'r', 'm', 's', ' '], .number, .lit [' ', 's', 't', 'u', 'n', 'd', 'a', 's']], .seqs [.lit ['p', 'e', 'c', ' '], .number, .lit [' ', 'm', 'e', 'n', 'e', 's', 'i', 'e', 'm']], .seqs [.lit ['p', 'e', 'c', ' '], .number, .lit [' ', 's', 'e', 'k', 'u', 'n', 'd', 'e', 'm']], .seqs [.lit ['p', 'e', 'c', ' '], .number, .lit [' ', 's', 'e', 'k', 'u', 'n', 'd', 'e', 's']], .seqs [.lit ['p', 'i', 'r', 'm', 's', ' '], .number, .lit [' ', 'd', 'i', 'e', 'n', 'a', 'm']], .seqs [.lit ['p', 'i', 'r', 'm', 's', ' '], .number, .lit [' ', 'd', 'i', 'e', 'n', 'a', 's']], .seqs [.lit ['p', 'i', 'r', 'm', 's', ' '], .number, .lit [' ', 'g', 'a', 'd', 'i', 'e', 'm']], .seqs [.lit ['p', 'i', 'r', 'm', 's', ' '], .number, .lit [' ', 'm', 'e', 'n', 'e', 's', 'a']], .seqs [.lit ['p', 'e', 'c', ' '], .number, .lit [' ', 'm', 'i', 'n', 'u', 't', 'e', 'm']], .seqs [.lit ['p', 'e', 'c', ' '], .number, .lit [' ', 'm', 'i', 'n', 'u', 't', 'e', 's']], .seqs [.lit ['p', 'e', 'c', ' '], .number, .lit [' ', 'n', 'e', 'd', 'e', 'l', 'a', 'm']], .seqs [.lit ['p', 'e', 'c', ' '], .number, .lit [' ', 'n', 'e', 'd', 'e', 'l', 'a', 's']], .seqs [.lit ['p', 'e', 'c', ' '], .number, .lit [' ', 's', 't', 'u', 'n', 'd', 'a', 'm']], .seqs [.lit ['p', 'e', 'c', ' '], .number, .lit [' ', 's', 't', 'u', 'n', 'd', 'a', 's']], .seqs [.lit ['p', 'e', 'c', ' '], .number, .lit [' ', 'd', 'i', 'e', 'n', 'a', 'm']], .seqs [.lit ['p', 'e', 'c', ' '], .number, .lit [' ', 'd', 'i', 'e', 'n', 'a', 's']], .seqs [.lit ['p', 'e', 'c', ' '], .number, .lit [' ', 'g', 'a', 'd', 'i', 'e', 'm']], .seqs [.lit ['p', 'e', 'c', ' '], .number, .lit [' ', 'm', 'e', 'n', 'e', 's', 'a']], .seqs [.lit ['p', 'i', 'r', 'm', 's', ' '], .number, .lit [' ', 'g', 'a', 'd', 'a']], .seqs [.lit ['p', 'i', 'r', 'm', 's', ' '], .number, .lit [' ', 'm', 'e', 'n']], .seqs [.lit ['p', 'i', 'r', 'm', 's', ' '], .number, .lit [' ', 'm', 'i', 'n']], .seqs [.lit ['p', 'i', 'r', 'm', 's', ' '], .number, .lit [' ', 'n', 'e', 'd']], .seqs [.lit ['p', 'i', 'r', 'm', 's', ' '], .number, .lit [' ', 's', 'e', 'k']], .seqs [.lit ['p', 'e', 'c', ' '], .number, .lit [' ', 'g', 'a', 'd', 'a']], .seqs [.lit ['p', 'i', 'r', 'm', 's', ' '], .number, .lit [' ', 's', 't']], .seqs [.lit ['p', 'e', 'c', ' '], .number, .lit [' ', 'm', 'e', 'n']], .seqs [.lit ['p', 'e', 'c', ' '], .number, .lit [' ', 'm', 'i', 'n']], .seqs [.lit ['p', 'e', 'c', ' '], .number, .lit [' ', 'n', 'e', 'd']], .seqs [.lit ['p', 'e', 'c', ' '], .number, .lit [' ', 's', 'e', 'k']], .seqs [.lit ['p', 'i', 'r', 'm', 's', ' '], .number, .lit [' ', 'd']], .seqs [.lit ['p', 'i', 'r', 'm', 's', ' '], .number, .lit [' ', 'g']], .seqs [.lit ['p', 'i', 'r', 'm', 's', ' '], .number, .lit [' ', 'h']], .seqs [.lit ['p', 'i', 'r', 'm', 's', ' '], .number, .lit [' ', 's']], .seqs [.lit ['p', 'e', 'c', ' '], .number, .lit [' ', 's', 't']], .seqs [.lit ['p', 'e', 'c', ' '], .number, .lit [' ', 'd']], .seqs [.lit ['p', 'e', 'c', ' '], .number, .lit [' ', 'g']], .seqs [.lit ['p', 'e', 'c', ' '], .number, .lit [' ', 'h']], .seqs [.lit ['p', 'e', 'c', ' '], .number, .lit [' ', 's']]]), .eos]),
  knownWords :=
   [['p', 'a', 'g', 'a', 'j', 'u', 's', 'a', 'j', 'a', ' ', 'm', 'e', 'n', 'e', 's', 'i'], ['p', 'a', 'g', 'a', 'j', 'u', 's', 'a', 'j', 'a', ' ', 'n', 'e', 'd', 'e', 'l', 'a'], ['n', 'a', 'k', 'a', 'm', 'a', 'j', 'a', ' ', 'm', 'e', 'n', 'e', 's', 'i'], ['n', 'a', 'k', 'a', 'm', 'a', 'j', 'a', ' ', 'n', 'e', 'd', 'e', 'l', 'a'], ['p', 'a', 'g', 'a', 'j', 'u', 's', 'a', 'j', 'a', ' ', 'g', 'a', 'd', 'a'], ['p', 'r', 'i', 'e', 'k', 's', 'p', 'u', 's', 'd', 'i', 'e', 'n', 'a'], ['n', 'a', 'k', 'a', 'm', 'a', 'j', 'a', ' ', 'g', 'a', 'd', 'a'], ['c', 'e', 't', 'u', 'r', 't', 'd', 'i', 'e', 'n', 'a'], ['p', 'e', 'c', 'p', 'u', 's', 'd', 'i', 'e', 'n', 'a'], ['s', 'a', 'j', 'a', ' ', 'm', 'e', 'n', 'e', 's', 'i'], ['s', 'a', 'j', 'a', ' ', 'm', 'i', 'n', 'u', 't', 'e'], ['s', 'a', 'j', 'a', ' ', 'n', 'e', 'd', 'e', 'l', 'a'], ['s', 'a', 'j', 'a', ' ', 's', 't', 'u', 'n', 'd', 'a'], ['p', 'i', 'e', 'k', 't', 'd', 'i', 'e', 'n', 'a'], ['s', 'e', 'p', 't', 'e', 'm', 'b', 'r', 'i', 's'], ['d', 'e', 'c', 'e', 'm', 'b', 'r', 'i', 's'], ['f', 'e', 'b', 'r', 'u', 'a', 'r', 'i', 's'], ['n', 'o', 'v', 'e', 'm', 'b', 'r', 'i', 's'], ['p', 'i', 'r', 'm', 'd', 'i', 'e', 'n', 'a'], ['s', 'a', 'j', 'a', ' ', 'g', 'a', 'd', 'a'], ['s', 'e', 's', 't', 'd', 'i', 'e', 'n', 'a'], ['s', 'v', 'e', 't', 'd', 'i', 'e', 'n', 'a'], ['t', 'r', 'e', 's', 'd', 'i', 'e', 'n', 'a'], ['j', 'a', 'n', 'v', 'a', 'r', 'i', 's'], ['o', 'k', 't', 'o', 'b', 'r', 'i', 's'], ['o', 't', 'r', 'd', 'i', 'e', 'n', 'a'], ['s', 'e', 'k', 'u', 'n', 'd', 'e', 's'], ['a', 'p', 'r', 'i', 'l', 'i', 's'], ['a', 'u', 'g', 'u', 's', 't', 's'], ['c', 'e', 't', 'u', 'r', 't', 'd'], ['m', 'e', 'n', 'e', 's', 'i', 's'], ['m', 'i', 'n', 'u', 't', 'e', 's'], ['p', 'e', 'c', 'p', 'u', 's', 'd'], ['p', 'r', 'i', 'e', 'k', 's', 'p'], ['s', 't', 'u', 'n', 'd', 'a', 's'], ['j', 'u', 'l', 'i', 'j', 's'], ['j', 'u', 'n', 'i', 'j', 's'], ['n', 'e', 'd', 'e', 'l', 'a'], ['p', 'i', 'e', 'k', 't', 'd'], ['s', 'o', 'd', 'i', 'e', 'n'], ['d', 'i', 'e', 'n', 'a'], ['m', 'a', 'i', 'j', 's'], ['m', 'a', 'r', 't', 's'], ['p', 'i', 'r', 'm', 'd'], ['s', 'e', 's', 't', 'd'], ['s', 'v', 'e', 't', 'd'], ['t', 'a', 'g', 'a', 'd'], ['t', 'r', 'e', 's', 'd'], ['v', 'a', 'k', 'a', 'r'], ['f', 'e', 'b', 'r'], ['g', 'a', 'd', 's'], ['j', 'a', 'n', 'v'], ['o', 't', 'r', 'd'], ['p', 'e', 'c', 'p'], ['s', 'e', 'p', 't'], ['a', 'p', 'r'], ['a', 'u', 'g'], ['d', 'e', 'c'], ['g', 'm', 't'], ['j', 'u', 'l'], ['j', 'u', 'n'], ['m', 'e', 'n'], ['m', 'i', 'n'], ['n', 'e', 'd'], ['n', 'o', 'v'], ['o', 'k', 't'], ['r', 'i', 't'], ['s', 'e', 'k'], ['u', 't', 'c'], ['a', 'm'], ['p', 'm'], ['s', 't'], [' '], ['\''], ['+'], [','], ['-'], ['.'], ['/'], [':'], [';'], ['@'], ['['], [']'], ['d'], ['g'], ['h'], ['s'], ['z'], ['|']] }

/-- internal/data/mas.go: `mas_Locale`. -/
def masLang : LangData := { masDict with
  knownWords :=
   [['o', 'l', 'o', 'i', 'l', 'e', 'p', 'u', 'n', 'y', 'i', 'e', ' ', 'i', 'n', 'k', 'o', 'k', 'u', 'a'], ['o', 'l', 'o', 'd', 'o', 'y', 'i', 'o', 'r', 'i', 'e', ' ', 'i', 'n', 'k', 'o', 'k', 'u', 'a'], ['t', 'h', 'i', 's', ' ', 'm', 'i', 'n', 'u', 't', 'e'], ['l', 'a', 's', 't', ' ', 'm', 'o', 'n', 't', 'h'], ['n', 'e', 'x', 't', ' ', 'm', 'o', 'n', 't', 'h'], ['t', 'h', 'i', 's', ' ', 'm', 'o', 'n', 't', 'h'], ['ɔ', 'l', 'ɔ', 'ɨ', 'b', 'ɔ', 'r', 'a', 'r', 'ɛ'], ['l', 'a', 's', 't', ' ', 'w', 'e', 'e', 'k'], ['l', 'a', 's', 't', ' ', 'y', 'e', 'a', 'r'], ['m', 'o', 'r', 'u', 's', 'a', 's', 'i', 'n'], ['n', 'e', 'x', 't', ' ', 'w', 'e', 'e', 'k'], ['n', 'e', 'x', 't', ' ', 'y', 'e', 'a', 'r'], ['o', 'l', 'd', 'a', 'k', 'i', 'k', 'a', 'e'], ['t', 'h', 'i', 's', ' ', 'h', 'o', 'u', 'r'], ['t', 'h', 'i', 's', ' ', 'w', 'e', 'e', 'k'], ['t', 'h', 'i', 's', ' ', 'y', 'e', 'a', 'r'], ['ɔ', 'ɛ', 'n', 'ɨ', 'ɔ', 'ɨ', 'ŋ', 'ɔ', 'k'], ['ɛ', 'n', 'k', 'a', 'k', 'ɛ', 'n', 'y', 'a'], ['a', 'l', 'a', 'a', 'm', 'i', 's', 'i'], ['j', 'u', 'm', 'a', 'm', 'o', 's', 'i'], ['j', 'u', 'm', 'a', 'p', 'i', 'l', 'i'], ['j', 'u', 'm', 'a', 't', 'a', 'n', 'ɔ'], ['j', 'u', 'm', 'a', 't', 'a', 't', 'u'], ['k', 'u', 'j', 'u', 'ɔ', 'r', 'ɔ', 'k'], ['t', 'a', 'a', 'i', 's', 'e', 'r', 'e'], ['o', 'l', 'a', 'd', 'a', 'l', 'ʉ'], ['o', 'l', 'g', 'i', 's', 'a', 'n'], ['p', 'ʉ', 's', 'h', 'ʉ', 'k', 'a'], ['s', 'e', 'k', 'u', 'n', 'd', 'e'], ['ɛ', 'n', 'k', 'ɔ', 'l', 'ɔ', 'ŋ'], ['j', 'u', 'm', 'a', 'n', 'e'], ['k', 'u', 's', 'h', 'i', 'n'], ['n', 't', 'ʉ', 'ŋ', 'ʉ', 's'], ['ɛ', 'n', 'd', 'a', 'm', 'a'], ['e', 'w', 'i', 'k', 'i'], ['j', 'u', 'm', 'a', 'a'], ['t', 'a', 'a', 't', 'a'], ['ɔ', 'l', 'a', 'p', 'a'], ['ɔ', 'l', 'a', 'r', 'i'], ['a', 'r', 'a', 't'], ['ŋ', 'o', 'l', 'e'], ['ɛ', 's', 'a', 'a'], ['a', 'l', 'h'], ['a', 'r', 'a'], ['b', 'ɔ', 'r'], ['d', 'a', 'l'], ['d', 'o', 'y'], ['g', 'i', 's'], ['g', 'm', 't'], ['i', 'j', 'u'], ['j', 'm', 'o'], ['j', 'n', 'n'], ['j', 'p', 'i'], ['j', 't', 'n'], ['j', 't', 't'], ['k', 'u', 's'], ['l', 'e', 'p'], ['n', 'o', 'w'], ['n', 't', 'ʉ'], ['r', 'o', 'k'], ['s', 'a', 's'], ['s', 'h', 'ʉ'], ['u', 't', 'c'], ['ɔ', 'ɛ', 'n'], ['a', 'm'], ['p', 'm'], [' '], ['\''], ['+'], [','], ['-'], ['.'], ['/'], [':'], [';'], ['@'], ['['], [']'], ['z'], ['|']] }

/-- internal/data/mas.go: `mas_TZ_Locale`. -/
def mas_TZLang : LangData := mas_TZDict

/-- internal/data/mer.go: `mer_Locale`. -/
def merLang : LangData := { merDict with
  knownWords :=
   [['t', 'h', 'i', 's', ' ', 'm', 'i', 'n', 'u', 't', 'e'], ['l', 'a', 's', 't', ' ', 'm', 'o', 'n', 't', 'h'], ['n', 'e', 'x', 't', ' ', 'm', 'o', 'n', 't', 'h'], ['t', 'h', 'i', 's', ' ', 'm', 'o', 'n', 't', 'h'], ['f', 'e', 'b', 'u', 'r', 'u', 'a', 'r', 'i'], ['l', 'a', 's', 't', ' ', 'w', 'e', 'e', 'k'], ['l', 'a', 's', 't', ' ', 'y', 'e', 'a', 'r'], ['n', 'e', 'x', 't', ' ', 'w', 'e', 'e', 'k'], ['n', 'e', 'x', 't', ' ', 'y', 'e', 'a', 'r'], ['t', 'h', 'i', 's', ' ', 'h', 'o', 'u', 'r'], ['t', 'h', 'i', 's', ' ', 'w', 'e', 'e', 'k'], ['t', 'h', 'i', 's', ' ', 'y', 'e', 'a', 'r'], ['j', 'u', 'm', 'a', 'm', 'o', 's', 'i'], ['m', 'u', 'r', 'a', 'm', 'u', 'k', 'o'], ['s', 'e', 'p', 't', 'e', 'm', 'b', 'a'], ['d', 'i', 'c', 'e', 'm', 'b', 'a'], ['j', 'a', 'n', 'u', 'a', 'r', 'i'], ['n', 'd', 'a', 'g', 'i', 'k', 'a'], ['n', 'o', 'v', 'e', 'm', 'b', 'a'], ['s', 'e', 'k', 'o', 'n', 'd', 'i'], ['w', 'e', 't', 'h', 'a', 't', 'u'], ['a', 'g', 'a', 's', 't', 'i'], ['k', 'i', 'u', 'm', 'i', 'a'], ['n', 'j', 'u', 'r', 'a', 'i'], ['o', 'k', 't', 'u', 'b', 'a'], ['w', 'e', 't', 'a', 'n', 'o'], ['i', 'g', 'o', 'r', 'o'], ['i', 'p', 'u', 'r', 'u'], ['i', 't', 'h', 'a', 'a'], ['m', 'a', 'c', 'h', 'i'], ['m', 'w', 'a', 'k', 'a'], ['m', 'w', 'e', 'r', 'i'], ['n', 'a', 'r', 'u', 'a'], ['n', 'j', 'u', 'n', 'i'], ['n', 't', 'u', 'k', 'u'], ['w', 'a', 'i', 'r', 'i'], ['r', 'u', 'j', 'u'], ['w', 'e', 'n', 'a'], ['a', 'g', 'a'], ['d', 'e', 'c'], ['f', 'e', 'b'], ['g', 'm', 't'], ['i', 'p', 'u'], ['j', 'a', 'n'], ['j', 'u', 'm'], ['k', 'i', 'u'], ['m', 'a', 'c'], ['m', 'i', 'i'], ['m', 'r', 'a'], ['n', 'j', 'r'], ['n', 'j', 'u'], ['n', 'o', 'v'], ['n', 'o', 'w'], ['o', 'k', 't'], ['s', 'p', 't'], ['u', 't', 'c'], ['w', 'a', 'i'], ['w', 'e', 'n'], ['w', 'e', 't'], ['w', 't', 'n'], ['a', 'm'], ['p', 'm'], ['r', 'u'], ['u', 'g'], [' '], ['\''], ['+'], [','], ['-'], ['.'], ['/'], [':'], [';'], ['@'], ['['], [']'], ['z'], ['|']] }

/-- internal/data/mfe.go: `mfe_Locale`. -/
def mfeLang : LangData := { mfeDict with
  knownWords :=
   [['t', 'h', 'i', 's', ' ', 'm', 'i', 'n', 'u', 't', 'e'], ['l', 'a', 's', 't', ' ', 'm', 'o', 'n', 't', 'h'], ['n', 'e', 'x', 't', ' ', 'm', 'o', 'n', 't', 'h'], ['t', 'h', 'i', 's', ' ', 'm', 'o', 'n', 't', 'h'], ['l', 'a', 's', 't', ' ', 'w', 'e', 'e', 'k'], ['l', 'a', 's', 't', ' ', 'y', 'e', 'a', 'r'], ['n', 'e', 'x', 't', ' ', 'w', 'e', 'e', 'k'], ['n', 'e', 'x', 't', ' ', 'y', 'e', 'a', 'r'], ['t', 'h', 'i', 's', ' ', 'h', 'o', 'u', 'r'], ['t', 'h', 'i', 's', ' ', 'w', 'e', 'e', 'k'], ['t', 'h', 'i', 's', ' ', 'y', 'e', 'a', 'r'], ['m', 'e', 'r', 'k', 'r', 'e', 'd', 'i'], ['v', 'a', 'n', 'd', 'r', 'e', 'd', 'i'], ['f', 'e', 'v', 'r', 'i', 'y', 'e'], ['d', 'i', 'm', 'a', 'n', 's'], ['s', 'e', 'g', 'o', 'n', 'n'], ['s', 'e', 'm', 'e', 'n', 'n'], ['s', 'e', 'p', 't', 'a', 'm'], ['z', 'a', 'n', 'v', 'i', 'e'], ['a', 'v', 'r', 'i', 'l'], ['d', 'e', 'm', 'i', 'n'], ['d', 'e', 's', 'a', 'm'], ['l', 'i', 'n', 'd', 'i'], ['m', 'a', 'r', 'd', 'i'], ['m', 'i', 'n', 'i', 't'], ['n', 'o', 'v', 'a', 'm'], ['o', 'k', 't', 'o', 'b'], ['s', 'a', 'm', 'd', 'i'], ['z', 'i', 'l', 'y', 'e'], ['z', 'o', 'r', 'd', 'i'], ['l', 'a', 'n', 'e'], ['m', 'a', 'r', 's'], ['z', 'e', 'd', 'i'], ['z', 'o', 'u', 'r'], ['a', 'v', 'r'], ['d', 'e', 's'], ['d', 'i', 'm'], ['f', 'e', 'v'], ['g', 'm', 't'], ['l', 'e', 'r'], ['l', 'i', 'n'], ['m', 'a', 'r'], ['m', 'e', 'r'], ['m', 'w', 'a'], ['n', 'o', 'v'], ['n', 'o', 'w'], ['o', 'k', 't'], ['o', 'u', 't'], ['s', 'a', 'm'], ['s', 'e', 'p'], ['u', 't', 'c'], ['v', 'a', 'n'], ['y', 'e', 'r'], ['z', 'a', 'n'], ['z', 'i', 'l'], ['z', 'i', 'n'], ['a', 'm'], ['m', 'e'], ['p', 'm'], ['z', 'e'], [' '], ['\''], ['+'], [','], ['-'], ['.'], ['/'], [':'], [';'], ['@'], ['['], [']'], ['z'], ['|']] }

/-- internal/data/mg.go: `mg_Locale`. -/
def mgLang : LangData := { mgDict with
  knownWords :=
   [['a', 'l', 'a', 't', 's', 'i', 'n', 'a', 'i', 'n', 'y'], ['t', 'h', 'i', 's', ' ', 'm', 'i', 'n', 'u', 't', 'e'], ['h', 'e', 'r', 'i', 'n', 'a', 'n', 'd', 'r', 'o'], ['l', 'a', 's', 't', ' ', 'm', 'o', 'n', 't', 'h'], ['n', 'e', 'x', 't', ' ', 'm', 'o', 'n', 't', 'h'], ['r', 'a', 'h', 'a', 'm', 'p', 'i', 't', 's', 'o'], ['t', 'h', 'i', 's', ' ', 'm', 'o', 'n', 't', 'h'], ['a', 'l', 'a', 'k', 'a', 'm', 'i', 's', 'y'], ['a', 'o', 'g', 'o', 's', 'i', 't', 'r', 'a'], ['l', 'a', 's', 't', ' ', 'w', 'e', 'e', 'k'], ['l', 'a', 's', 't', ' ', 'y', 'e', 'a', 'r'], ['n', 'e', 'x', 't', ' ', 'w', 'e', 'e', 'k'], ['n', 'e', 'x', 't', ' ', 'y', 'e', 'a', 'r'], ['s', 'e', 'p', 't', 'a', 'm', 'b', 'r', 'a'], ['t', 'h', 'i', 's', ' ', 'h', 'o', 'u', 'r'], ['t', 'h', 'i', 's', ' ', 'w', 'e', 'e', 'k'], ['t', 'h', 'i', 's', ' ', 'y', 'e', 'a', 'r'], ['a', 'l', 'a', 'r', 'o', 'b', 'i', 'a'], ['a', 's', 'a', 'b', 'o', 't', 's', 'y'], ['d', 'e', 's', 'a', 'm', 'b', 'r', 'a'], ['f', 'e', 'b', 'r', 'o', 'a', 'r', 'y'], ['n', 'o', 'v', 'a', 'm', 'b', 'r', 'a'], ['s', 'e', 'g', 'o', 'n', 'd', 'r', 'a'], ['a', 'l', 'a', 'h', 'a', 'd', 'y'], ['j', 'a', 'n', 'o', 'a', 'r', 'y'], ['m', 'i', 'n', 'i', 't', 'r', 'a'], ['o', 'k', 't', 'o', 'b', 'r', 'a'], ['a', 'p', 'r', 'i', 'l', 'y'], ['m', 'a', 'r', 't', 's', 'a'], ['t', 'a', 'l', 'a', 't', 'a'], ['v', 'o', 'l', 'a', 'n', 'a'], ['a', 'l', 'a', 't', 's'], ['a', 'n', 'd', 'r', 'o'], ['j', 'o', 'l', 'a', 'y'], ['o', 'm', 'a', 'l', 'y'], ['t', 'a', 'o', 'n', 'a'], ['a', 'l', 'a', 'h'], ['a', 'l', 'a', 'k'], ['a', 'l', 'a', 'r'], ['a', 'n', 'i', 'o'], ['a', 's', 'a', 'b'], ['j', 'o', 'n', 'a'], ['z', 'o', 'm', 'a'], ['a', 'o', 'g'], ['a', 'p', 'r'], ['d', 'e', 's'], ['f', 'e', 'b'], ['g', 'm', 't'], ['j', 'a', 'n'], ['j', 'o', 'l'], ['j', 'o', 'n'], ['m', 'a', 'r'], ['m', 'e', 'y'], ['n', 'o', 'v'], ['n', 'o', 'w'], ['o', 'k', 't'], ['o', 'r', 'a'], ['s', 'e', 'p'], ['t', 'a', 'l'], ['u', 't', 'c'], ['z', 'o', 'm'], ['a', 'm'], ['p', 'm'], [' '], ['\''], ['+'], [','], ['-'], ['.'], ['/'], [':'], [';'], ['@'], ['['], [']'], ['z'], ['|']] }

/-- internal/data/mgh.go: `mgh_Locale`. -/
def mghLang : LangData := { mghDict with
  knownWords :=
   [['m', 'w', 'e', 'r', 'i', ' ', 'w', 'o', ' ', 'k', 'u', 'm', 'i', ' ', 'n', 'a', ' ', 'y', 'e', 'l', '\'', 'l', 'i'], ['m', 'w', 'e', 'r', 'i', ' ', 'w', 'o', ' ', 't', 'h', 'a', 'n', 'u', ' ', 'n', 'a', ' ', 'm', 'o', 'c', 'h', 'a'], ['m', 'w', 'e', 'r', 'i', ' ', 'w', 'o', ' ', 'k', 'u', 'm', 'i', ' ', 'n', 'a', ' ', 'm', 'o', 'j', 'a'], ['m', 'w', 'e', 'r', 'i', ' ', 'w', 'o', ' ', 'u', 'n', 'e', 'c', 'h', 'e', 's', 'h', 'e'], ['m', 'w', 'e', 'r', 'i', ' ', 'w', 'o', ' ', 'u', 'n', 'e', 't', 'h', 'a', 'n', 'u'], ['m', 'w', 'e', 'r', 'i', ' ', 'w', 'o', ' ', 'u', 'n', 'a', 'y', 'e', 'l', 'i'], ['m', 'w', 'e', 'r', 'i', ' ', 'w', 'o', ' ', 'u', 'n', 'e', 'r', 'a', 'r', 'u'], ['m', 'w', 'e', 'r', 'i', ' ', 'w', 'o', ' ', 'k', 'w', 'a', 'n', 'z', 'a'], ['m', 'w', 'e', 'r', 'i', ' ', 'w', 'o', ' ', 'k', 'u', 'm', 'i'], ['m', 'w', 'e', 'r', 'i', ' ', 'w', 'o', ' ', 'n', 'a', 'n', 'e'], ['m', 'w', 'e', 'r', 'i', ' ', 'w', 'o', ' ', 's', 'a', 'b', 'a'], ['m', 'w', 'e', 'r', 'i', ' ', 'w', 'o', ' ', 't', 'i', 's', 'a'], ['i', 'w', 'i', 'k', 'i', ' ', 'm', 'o', 'c', 'h', 'a'], ['t', 'h', 'i', 's', ' ', 'm', 'i', 'n', 'u', 't', 'e'], ['l', 'a', 's', 't', ' ', 'm', 'o', 'n', 't', 'h'], ['m', 'c', 'h', 'o', 'c', 'h', 'i', 'l', '\'', 'l'], ['n', 'e', 'x', 't', ' ', 'm', 'o', 'n', 't', 'h'], ['t', 'h', 'i', 's', ' ', 'm', 'o', 'n', 't', 'h'], ['a', 'r', 'a', 'h', 'a', 'm', 'i', 's', 'i'], ['l', 'a', 's', 't', ' ', 'w', 'e', 'e', 'k'], ['l', 'a', 's', 't', ' ', 'y', 'e', 'a', 'r'], ['n', 'e', 'x', 't', ' ', 'w', 'e', 'e', 'k'], ['n', 'e', 'x', 't', ' ', 'y', 'e', 'a', 'r'], ['t', 'h', 'i', 's', ' ', 'h', 'o', 'u', 'r'], ['t', 'h', 'i', 's', ' ', 'w', 'e', 'e', 'k'], ['t', 'h', 'i', 's', ' ', 'y', 'e', 'a', 'r'], ['i', 's', 'e', 'k', 'u', 'n', 'd', 'e'], ['j', 'u', 'm', 'a', 'm', 'o', 's', 'i'], ['j', 'u', 'm', 'a', 't', 'a', 'n', 'o'], ['j', 'u', 'm', 'a', 't', 'a', 't', 'u'], ['w', 'i', 'c', 'h', 'i', 's', 'h', 'u'], ['i', 'd', 'a', 'k', 'i', 'k', 'a'], ['j', 'u', 'm', 'a', 'n', 'n', 'e'], ['n', '\'', 'c', 'h', 'a', 'n', 'a'], ['i', 'j', 'u', 'm', 'a', 'a'], ['l', 'e', 'l', '\'', 'l', 'o'], ['m', 'e', '\'', 'l', 'l', 'o'], ['n', 'i', 'h', 'u', 'k', 'u'], ['s', 'a', 'b', 'a', 't', 'o'], ['m', 'w', 'e', 'r', 'i'], ['i', 's', 'a', 'a'], ['y', 'a', 'k', 'a'], ['a', 'r', 'a'], ['c', 'h', 'e'], ['g', 'm', 't'], ['i', 'j', 'u'], ['j', 'm', 'o'], ['j', 'n', 'n'], ['j', 't', 'n'], ['j', 't', 't'], ['k', 'u', 'm'], ['k', 'w', 'a'], ['m', 'o', 'c'], ['m', 'o', 'j'], ['n', 'a', 'n'], ['n', 'o', 'w'], ['r', 'a', 'r'], ['s', 'a', 'b'], ['t', 'h', 'a'], ['t', 'i', 's'], ['u', 'n', 'a'], ['u', 't', 'c'], ['y', 'e', 'l'], ['a', 'm'], ['p', 'm'], [' '], ['\''], ['+'], [','], ['-'], ['.'], ['/'], [':'], [';'], ['@'], ['['], [']'], ['z'], ['|']] }

/-- internal/data/mgo.go: `mgo_Locale`. -/
def mgoLang : LangData := { mgoDict with
  knownWords :=
   [['i', 'm', 'e', 'g', ' ', 'm', 'b', 'ə', 'ŋ', 'c', 'h', 'u', 'b', 'i'], ['i', 'm', 'ə', 'g', ' ', 'i', 'c', 'h', 'i', 'i', 'b', 'ɔ', 'd'], ['i', 'm', 'ə', 'g', ' ', 'a', 'd', 'u', 'm', 'b', 'ə', 'ŋ'], ['i', 'm', 'ə', 'g', ' ', 'k', 'r', 'i', 'z', 'm', 'e', 'd'], ['i', 'm', 'ə', 'g', ' ', 'm', 'b', 'e', 'g', 't', 'u', 'g'], ['i', 'm', 'ə', 'g', ' ', 'i', 'c', 'h', 'i', 'k', 'a'], ['i', 'm', 'ə', 'g', ' ', 't', 'e', 's', 'i', '\'', 'e'], ['t', 'h', 'i', 's', ' ', 'm', 'i', 'n', 'u', 't', 'e'], ['i', 'm', 'e', 'g', ' ', 'a', 'b', 'u', 'b', 'i'], ['i', 'm', 'ə', 'g', ' ', 'n', 'g', 'w', 'ə', 't'], ['l', 'a', 's', 't', ' ', 'm', 'o', 'n', 't', 'h'], ['n', 'e', 'x', 't', ' ', 'm', 'o', 'n', 't', 'h'], ['t', 'h', 'i', 's', ' ', 'm', 'o', 'n', 't', 'h'], ['l', 'a', 's', 't', ' ', 'w', 'e', 'e', 'k'], ['l', 'a', 's', 't', ' ', 'y', 'e', 'a', 'r'], ['n', 'e', 'x', 't', ' ', 'w', 'e', 'e', 'k'], ['n', 'e', 'x', 't', ' ', 'y', 'e', 'a', 'r'], ['t', 'h', 'i', 's', ' ', 'h', 'o', 'u', 'r'], ['t', 'h', 'i', 's', ' ', 'w', 'e', 'e', 'k'], ['t', 'h', 'i', 's', ' ', 'y', 'e', 'a', 'r'], ['i', 'm', 'ə', 'g', ' ', 'f', 'o', 'g'], ['i', 'm', 'ə', 'g', ' ', 'k', 'u', 'd'], ['i', 'm', 'ə', 'g', ' ', 'z', 'o'], ['m', 'b', 'e', 'g', 't', 'u', 'g'], ['a', 'n', 'e', 'g', ' ', '1'], ['a', 'n', 'e', 'g', ' ', '2'], ['a', 'n', 'e', 'g', ' ', '3'], ['a', 'n', 'e', 'g', ' ', '4'], ['a', 'n', 'e', 'g', ' ', '5'], ['a', 'n', 'e', 'g', ' ', '6'], ['a', 'n', 'e', 'g', ' ', '7'], ['i', 'k', 'w', 'i', 'r', 'i'], ['m', 'i', 'n', 'u', 't', 'e'], ['s', 'e', 'c', 'o', 'n', 'd'], ['t', 'e', 'c', 'h', 'ɔ', 'ŋ'], ['f', 'i', 't', 'u', '\''], ['a', 'n', 'ə', 'g'], ['h', 'o', 'u', 'r'], ['i', 'm', 'ə', 'g'], ['n', 'k', 'a', 'p'], ['g', 'm', 't'], ['i', 's', 'u'], ['n', 'o', 'w'], ['u', 't', 'c'], ['a', 'm'], ['p', 'm'], [' '], ['\''], ['+'], [','], ['-'], ['.'], ['/'], [':'], [';'], ['@'], ['['], [']'], ['z'], ['|']] }

/-- internal/data/mk.go: `mk_Locale`. -/
def mkLang : LangData := { mkDict with
  relativeRegexes :=
   [(.seqs [.cls false [.rng 'П' 'П', .rng 'п' 'п'], .cls false [.rng 'Р' 'Р', .rng 'р' 'р'], .cls false [.rng 'Е' 'Е', .rng 'е' 'е'], .cls false [.rng 'Д' 'Д', .rng 'д' 'д', .rng 'ᲁ' 'ᲁ'], .lit [' '], .grp 1 (.number), .lit [' '], .cls false [.rng 'С' 'С', .rng 'с' 'с', .rng 'ᲃ' 'ᲃ'], .cls false [.rng 'Е' 'Е', .rng 'е' 'е'], .cls false [.rng 'Д' 'Д', .rng 'д' 'д', .rng 'ᲁ' 'ᲁ'], .cls false [.rng 'М' 'М', .rng 'м' 'м'], .cls false [.rng 'И' 'И', .rng 'и' 'и'], .cls false [.rng 'Ц' 'Ц', .rng 'ц' 'ц'], .cls false [.rng 'А' 'А', .rng 'а' 'а']], [.ref 1, .lit [' ', 'w', 'e', 'e', 'k', ' ', 'a', 'g', 'o']]),
    (.seqs [.cls false [.rng 'П' 'П', .rng 'п' 'п'], .cls false [.rng 'Р' 'Р', .rng 'р' 'р'], .cls false [.rng 'Е' 'Е', .rng 'е' 'е'], .cls false [.rng 'Д' 'Д', .rng 'д' 'д', .rng 'ᲁ' 'ᲁ'], .lit [' '], .grp 1 (.number), .lit [' '], .cls false [.rng 'С' 'С', .rng 'с' 'с', .rng 'ᲃ' 'ᲃ'], .cls false [.rng 'Е' 'Е', .rng 'е' 'е'], .cls false [.rng 'Д' 'Д', .rng 'д' 'д', .rng 'ᲁ' 'ᲁ'], .cls false [.rng 'М' 'М', .rng 'м' 'м'], .cls false [.rng 'И' 'И', .rng 'и' 'и'], .cls false [.rng 'Ц' 'Ц', .rng 'ц' 'ц'], .cls false [.rng 'И' 'И', .rng 'и' 'и']], [.ref 1, .lit [' ', 'w', 'e', 'e', 'k', ' ', 'a', 'g', 'o']]),
    (.seqs [.cls false [.rng 'П' 'П', .rng 'п' 'п'], .cls false [.rng 'Р' 'Р', .rng 'р' 'р'], .cls false [.rng 'Е' 'Е', .rng 'е' 'е'], .cls false [.rng 'Д' 'Д', .rng 'д' 'д', .rng 'ᲁ' 'ᲁ'], .lit [' '], .grp 1 (.number), .lit [' '], .cls false [.rng 'С' 'С', .rng 'с' 'с', .rng 'ᲃ' 'ᲃ'], .cls false [.rng 'Е' 'Е', .rng 'е' 'е'], .cls false [.rng 'К' 'К', .rng 'к' 'к'], .cls false [.rng 'У' 'У', .rng 'у' 'у'], .cls false [.rng 'Н' 'Н', .rng 'н' 'н'], .cls false [.rng 'Д' 'Д', .rng 'д' 'д', .rng 'ᲁ' 'ᲁ'], .cls false [.rng 'А' 'А', .rng 'а' 'а']], [.ref 1, .lit [' ', 's', 'e', 'c', 'o', 'n', 'd', ' ', 'a', 'g', 'o']]),
    (.seqs [.cls false [.rng 'П' 'П', .rng 'п' 'п'], .cls false [.rng 'Р' 'Р', .rng 'р' 'р'], .cls false [.rng 'Е' 'Е', .rng 'е' 'е'], .cls false [.rng 'Д' 'Д', .rng 'д' 'д', .rng 'ᲁ' 'ᲁ'], .lit [' '], .grp 1 (.number), .lit [' '], .cls false [.rng 'С' 'С', .rng 'с' 'с', .rng 'ᲃ' 'ᲃ'], .cls false [.rng 'Е' 'Е', .rng 'е' 'е'], .cls false [.rng 'К' 'К', .rng 'к' 'к'], .cls false [.rng 'У' 'У', .rng 'у' 'у'], .cls false [.rng 'Н' 'Н', .rng 'н' 'н'], .cls false [.rng 'Д' 'Д', .rng 'д' 'д', .rng 'ᲁ' 'ᲁ'], .cls false [.rng 'И' 'И', .rng 'и' 'и']], [.ref 1, .lit [' ', 's', 'e', 'c', 'o', 'n', 'd', ' ', 'a', 'g', 'o']]),
    (.seqs [.cls false [.rng 'П' 'П', .rng 'п' 'п'], .cls false [.rng 'Р' 'Р', .rng 'р' 'р'], .cls false [.rng 'Е' 'Е', .rng 'е' 'е'], .cls false [.rng 'Д' 'Д', .rng 'д' 'д', .rng 'ᲁ' 'ᲁ'], .lit [' '], .grp 1 (.number), .lit [' '], .cls false [.rng 'Г' 'Г', .rng 'г' 'г'], .cls false [.rng 'О' 'О', .rng 'о' 'о', .rng 'ᲂ' 'ᲂ'], .cls false [.rng 'Д' 'Д', .rng 'д' 'д', .rng 'ᲁ' 'ᲁ'], .cls false [.rng 'И' 'И', .rng 'и' 'и'], .cls false [.rng 'Н' 'Н', .rng 'н' 'н'], .cls false [.rng 'А' 'А', .rng 'а' 'а']], [.ref 1, .lit [' ', 'y', 'e', 'a', 'r', ' ', 'a', 'g', 'o']]),
    (.seqs [.cls false [.rng 'П' 'П', .rng 'п' 'п'], .cls false [.rng 'Р' 'Р', .rng 'р' 'р'], .cls false [.rng 'Е' 'Е', .rng 'е' 'е'], .cls false [.rng 'Д' 'Д', .rng 'д' 'д', .rng 'ᲁ' 'ᲁ'], .lit [' '], .grp 1 (.number), .lit [' '], .cls false [.rng 'Г' 'Г', .rng 'г' 'г'], .cls false [.rng 'О' 'О', .rng 'о' 'о', .rng 'ᲂ' 'ᲂ'], .cls false [.rng 'Д' 'Д', .rng 'д' 'д', .rng 'ᲁ' 'ᲁ'], .cls false [.rng 'И' 'И', .rng 'и' 'и'], .cls false [.rng 'Н' 'Н', .rng 'н' 'н'], .cls false [.rng 'И' 'И', .rng 'и' 'и']], [.ref 1, .lit [' ', 'y', 'e', 'a', 'r', ' ', 'a', 'g', 'o']]),
    (.seqs [.cls false [.rng 'П' 'П', .rng 'п' 'п'], .cls false [.rng 'Р' 'Р', .rng 'р' 'р'], .cls false [.rng 'Е' 'Е', .rng 'е' 'е'], .cls false [.rng 'Д' 'Д', .rng 'д' 'д', .rng 'ᲁ' 'ᲁ'], .lit [' '], .grp 1 (.number), .lit [' '], .cls false [.rng 'М' 'М', .rng 'м' 'м'], .cls false [.rng 'Е' 'Е', .rng 'е' 'е'], .cls false [.rng 'С' 'С', .rng 'с' 'с', .rng 'ᲃ' 'ᲃ'], .cls false [.rng 'Е' 'Е', .rng 'е' 'е'], .cls false [.rng 'Ц' 'Ц', .rng 'ц' 'ц'], .cls false [.rng 'И' 'И', .rng 'и' 'и']], [.ref 1, .lit [' ', 'm', 'o', 'n', 't', 'h', ' ', 'a', 'g', 'o']]),
    (.seqs [.cls false [.rng 'П' 'П', .rng 'п' 'п'], .cls false [.rng 'Р' 'Р', .rng 'р' 'р'], .cls false [.rng 'Е' 'Е', .rng 'е' 'е'], .cls false [.rng 'Д' 'Д', .rng 'д' 'д', .rng 'ᲁ' 'ᲁ'], .lit [' '], .grp 1 (.number), .lit [' '], .cls false [.rng 'М' 'М', .rng 'м' 'м'], .cls false [.rng 'И' 'И', .rng 'и' 'и'], .cls false [.rng 'Н' 'Н', .rng 'н' 'н'], .cls false [.rng 'У' 'У', .rng 'у' 'у'], .cls false [.rng 'Т' 'Т', .rng 'т' 'т', .rng 'ᲄ' 'ᲄ', .rng 'ᲅ' 'ᲅ'], .cls false [.rng 'А' 'А', .rng 'а' 'а']], [.ref 1, .lit [' ', 'm', 'i', 'n', 'u', 't', 'e', ' ', 'a', 'g', 'o']]),
    (.seqs [.cls false [.rng 'П' 'П', .rng 'п' 'п'], .cls false [.rng 'Р' 'Р', .rng 'р' 'р'], .cls false [.rng 'Е' 'Е', .rng 'е' 'е'], .cls false [.rng 'Д' 'Д', .rng 'д' 'д', .rng 'ᲁ' 'ᲁ'], .lit [' '], .grp 1 (.number), .lit [' '], .cls false [.rng 'М' 'М', .rng 'м' 'м'], .cls false [.rng 'И' 'И', .rng 'и' 'и'], .cls false [.rng 'Н' 'Н', .rng 'н' 'н'], .cls false [.rng 'У' 'У', .rng 'у' 'у'], .cls false [.rng 'Т' 'Т', .rng 'т' 'т', .rng 'ᲄ' 'ᲄ', .rng 'ᲅ' 'ᲅ'], .cls false [.rng 'И' 'И', .rng 'и' 'и']], [.ref 1, .lit [' ', 'm', 'i', 'n', 'u', 't', 'e', ' ', 'a', 'g', 'o']]),
    (.seqs [.cls false [.rng 'З' 'З', .rng 'з' 'з'], .cls false [.rng 'А' 'А', .rng 'а' 'а'], .lit [' '], .grp 1 (.number), .lit [' '], .cls false [.rng 'С' 'С', .rng 'с' 'с', .rng 'ᲃ' 'ᲃ'], .cls false [.rng 'Е' 'Е', .rng 'е' 'е'], .cls false [.rng 'Д' 'Д', .rng 'д' 'д', .rng 'ᲁ' 'ᲁ'], .cls false [.rng 'М' 'М', .rng 'м' 'м'], .cls false [.rng 'И' 'И', .rng 'и' 'и'], .cls false [.rng 'Ц' 'Ц', .rng 'ц' 'ц'], .cls false [.rng 'А' 'А', .rng 'а' 'а']], [.lit ['i', 'n', ' '], .ref 1, .lit [' ', 'w', 'e', 'e', 'k']]),
    (.seqs [.cls false [.rng 'З' 'З', .rng 'з' 'з'], .cls false [.rng 'А' 'А', .rng 'а' 'а'], .lit [' '], .grp 1 (.number), .lit [' '], .cls false [.rng 'С' 'С', .rng 'с' 'с', .rng 'ᲃ' 'ᲃ'], .cls false [.rng 'Е' 'Е', .rng 'е' 'е'], .cls false [.rng 'Д' 'Д', .rng 'д' 'д', .rng 'ᲁ' 'ᲁ'], .cls false [.rng 'М' 'М', .rng 'м' 'м'], .cls false [.rng 'И' 'И', .rng 'и' 'и'], .cls false [.rng 'Ц' 'Ц', .rng 'ц' 'ц'], .cls false [.rng 'И' 'И', .rng 'и' 'и']], [.lit ['i', 'n', ' '], .ref 1, .lit [' ', 'w', 'e', 'e', 'k']]),
    (.seqs [.cls false [.rng 'З' 'З', .rng 'з' 'з'], .cls false [.rng 'А' 'А', .rng 'а' 'а'], .lit [' '], .grp 1 (.number), .lit [' '], .cls false [.rng 'С' 'С', .rng 'с' 'с', .rng 'ᲃ' 'ᲃ'], .cls false [.rng 'Е' 'Е', .rng 'е' 'е'], .cls false [.rng 'К' 'К', .rng 'к' 'к'], .cls false [.rng 'У' 'У', .rng 'у' 'у'], .cls false [.rng 'Н' 'Н', .rng 'н' 'н'], .cls false [.rng 'Д' 'Д', .rng 'д' 'д', .rng 'ᲁ' 'ᲁ'], .cls false [.rng 'А' 'А', .rng 'а' 'а']], [.lit ['i', 'n', ' '], .ref 1, .lit [' ', 's', 'e', 'c', 'o', 'n', 'd']]),
    (.seqs [.cls false [.rng 'З' 'З', .rng 'з' 'з'], .cls false [.rng 'А' 'А', .rng 'а' 'а'], .lit [' '], .grp 1 (.number), .lit [' '], .cls false [.rng 'С' 'С', .rng 'с' 'с', .rng 'ᲃ' 'ᲃ'], .cls false [.rng 'Е' 'Е', .rng 'е' 'е'], .cls false [.rng 'К' 'К', .rng 'к' 'к'], .cls false [.rng 'У' 'У', .rng 'у' 'у'], .cls false [.rng 'Н' 'Н', .rng 'н' 'н'], .cls false [.rng 'Д' 'Д', .rng 'д' 'д', .rng 'ᲁ' 'ᲁ'], .cls false [.rng 'И' 'И', .rng 'и' 'и']], [.lit ['i', 'n', ' '], .ref 1, .lit [' ', 's', 'e', 'c', 'o', 'n', 'd']]),
    (.seqs [.cls false [.rng 'П' 'П', .rng 'п' 'п'], .cls false [.rng 'Р' 'Р', .rng 'р' 'р'], .cls false [.rng 'Е' 'Е', .rng 'е' 'е'], .cls false [.rng 'Д' 'Д', .rng 'д' 'д', .rng 'ᲁ' 'ᲁ'], .lit [' '], .grp 1 (.number), .lit [' '], .cls false [.rng 'М' 'М', .rng 'м' 'м'], .cls false [.rng 'Е' 'Е', .rng 'е' 'е'], .cls false [.rng 'С' 'С', .rng 'с' 'с', .rng 'ᲃ' 'ᲃ'], .cls false [.rng 'Е' 'Е', .rng 'е' 'е'], .cls false [.rng 'Ц' 'Ц', .rng 'ц' 'ц']], [.ref 1, .lit [' ', 'm', 'o', 'n', 't', 'h', ' ', 'a', 'g', 'o']]),
    (.seqs [.cls false [.rng 'З' 'З', .rng 'з' 'з'], .cls false [.rng 'А' 'А', .rng 'а' 'а'], .lit [' '], .grp 1 (.number), .lit [' '], .cls false [.rng 'Г' 'Г', .rng 'г' 'г'], .cls false [.rng 'О' 'О', .rng 'о' 'о', .rng 'ᲂ' 'ᲂ'], .cls false [.rng 'Д' 'Д', .rng 'д' 'д', .rng 'ᲁ' 'ᲁ'], .cls false [.rng 'И' 'И', .rng 'и' 'и'], .cls false [.rng 'Н' 'Н', .rng 'н' 'н'], .cls false [.rng 'А' 'А', .rng 'а' 'а']], [.lit ['i', 'n', ' '], .ref 1, .lit [' ', 'y', 'e', 'a', 'r']]),
    (.seqs [.cls false [.rng 'З' 'З', .rng 'з' 'з'], .cls false [.rng 'А' 'А', .rng 'а' 'а'], .lit [' '], .grp 1 (.number), .lit [' '], .cls false [.rng 'Г' 'Г', .rng 'г' 'г'], .cls false [.rng 'О' 'О', .rng 'о' 'о', .rng 'ᲂ' 'ᲂ'], .cls false [.rng 'Д' 'Д', .rng 'д' 'д', .rng 'ᲁ' 'ᲁ'], .cls false [.rng 'И' 'И', .rng 'и' 'и'], .cls false [.rng 'Н' 'Н', .rng 'н' 'н'], .cls false [.rng 'И' 'И', .rng 'и' 'и']], [.lit ['i', 'n', ' '], .ref 1, .lit [' ', 'y', 'e', 'a', 'r']]),
    (.seqs [.cls false [.rng 'З' 'З', .rng 'з' 'з'], .cls false [.rng 'А' 'А', .rng 'а' 'а'], .lit [' '], .grp 1 (.number), .lit [' '], .cls false [.rng 'М' 'М', .rng 'м' 'м'], .cls false [.rng 'Е' 'Е', .rng 'е' 'е'], .cls false [.rng 'С' 'С', .rng 'с' 'с', .rng 'ᲃ' 'ᲃ'], .cls false [.rng 'Е' 'Е', .rng 'е' 'е'], .cls false [.rng 'Ц' 'Ц', .rng 'ц' 'ц'], .cls false [.rng 'И' 'И', .rng 'и' 'и']], [.lit ['i', 'n', ' '], .ref 1, .lit [' ', 'm', 'o', 'n', 't', 'h']]),
    (.seqs [.cls false [.rng 'З' 'З', .rng 'з' 'з'], .cls false [.rng 'А' 'А', .rng 'а' 'а'], .lit [' '], .grp 1 (.number), .lit [' '], .cls false [.rng 'М' 'М', .rng 'м' 'м'], .cls false [.rng 'И' 'И', .rng 'и' 'и'], .cls false [.rng 'Н' 'Н', .rng 'н' 'н'], .cls false [.rng 'У' 'У', .rng 'у' 'у'], .cls false [.rng 'Т' 'Т', .rng 'т' 'т', .rng 'ᲄ' 'ᲄ', .rng 'ᲅ' 'ᲅ'], .cls false [.rng 'А' 'А', .rng 'а' 'а']], [.lit ['i', 'n', ' '], .ref 1, .lit [' ', 'm', 'i', 'n', 'u', 't', 'e']]),
    (.seqs [.cls false [.rng 'З' 'З', .rng 'з' 'з'], .cls false [.rng 'А' 'А', .rng 'а' 'а'], .lit [' '], .grp 1 (.number), .lit [' '], .cls false [.rng 'М' 'М', .rng 'м' 'м'], .cls false [.rng 'И' 'И', .rng 'и' 'и'], .cls false [.rng 'Н' 'Н', .rng 'н' 'н'], .cls false [.rng 'У' 'У', .rng 'у' 'у'], .cls false [.rng 'Т' 'Т', .rng 'т' 'т', .rng 'ᲄ' 'ᲄ', .rng 'ᲅ' 'ᲅ'], .cls false [.rng 'И' 'И', .rng 'и' 'и']], [.lit ['i', 'n', ' '], .ref 1, .lit [' ', 'm', 'i', 'n', 'u', 't', 'e']]),
    (.seqs [.cls false [.rng 'П' 'П', .rng 'п' 'п'], .cls false [.rng 'Р' 'Р', .rng 'р' 'р'], .cls false [.rng 'Е' 'Е', .rng 'е' 'е'], .cls false [.rng 'Д' 'Д', .rng 'д' 'д', .rng 'ᲁ' 'ᲁ'], .lit [' '], .grp 1 (.number), .lit [' '], .cls false [.rng 'Д' 'Д', .rng 'д' 'д', .rng 'ᲁ' 'ᲁ'], .cls false [.rng 'Е' 'Е', .rng 'е' 'е'], .cls false [.rng 'Н' 'Н', .rng 'н' 'н'], .cls false [.rng 'А' 'А', .rng 'а' 'а']], [.ref 1, .lit [' ', 'd', 'a', 'y', ' ', 'a', 'g', 'o']]),
    (.seqs [.cls false [.rng 'П' 'П', .rng 'п' 'п'], .cls false [.rng 'Р' 'Р', .rng 'р' 'р'], .cls false [.rng 'Е' 'Е', .rng 'е' 'е'], .cls false [.rng 'Д' 'Д', .rng 'д' 'д', .rng 'ᲁ' 'ᲁ'], .lit [' '], .grp 1 (.number), .lit [' '], .cls false [.rng 'Ч' 'Ч', .rng 'ч' 'ч'], .cls false [.rng 'А' 'А', .rng 'а' 'а'], .cls false [.rng 'С' 'С', .rng 'с' 'с', .rng 'ᲃ' 'ᲃ'], .cls false [.rng 'А' 'А', .rng 'а' 'а']], [.ref 1, .lit [' ', 'h', 'o', 'u', 'r', ' ', 'a', 'g', 'o']]),
    (.seqs [.cls false [.rng 'З' 'З', .rng 'з' 'з'], .cls false [.rng 'А' 'А', .rng 'а' 'а'], .lit [' '], .grp 1 (.number), .lit [' '], .cls false [.rng 'М' 'М', .rng 'м' 'м'], .cls false [.rng 'Е' 'Е', .rng 'е' 'е'], .cls false [.rng 'С' 'С', .rng 'с' 'с', .rng 'ᲃ' 'ᲃ'], .cls false [.rng 'Е' 'Е', .rng 'е' 'е'], .cls false [.rng 'Ц' 'Ц', .rng 'ц' 'ц']], [.lit ['i', 'n', ' '], .ref 1, .lit [' ', 'm', 'o', 'n', 't', 'h']]),
    (.seqs [.cls false [.rng 'П' 'П', .rng 'п' 'п'], .cls false [.rng 'Р' 'Р', .rng 'р' 'р'], .cls false [.rng 'Е' 'Е', .rng 'е' 'е'], .cls false [.rng 'Д' 'Д', .rng 'д' 'д', .rng 'ᲁ' 'ᲁ'], .lit [' '], .grp 1 (.number), .lit [' '], .cls false [.rng 'Д' 'Д', .rng 'д' 'д', .rng 'ᲁ' 'ᲁ'], .cls false [.rng 'Е' 'Е', .rng 'е' 'е'], .cls false [.rng 'Н' 'Н', .rng 'н' 'н']], [.ref 1, .lit [' ', 'd', 'a', 'y', ' ', 'a', 'g', 'o']]),
    (.seqs [.cls false [.rng 'П' 'П', .rng 'п' 'п'], .cls false [.rng 'Р' 'Р', .rng 'р' 'р'], .cls false [.rng 'Е' 'Е', .rng 'е' 'е'], .cls false [.rng 'Д' 'Д', .rng 'д' 'д', .rng 'ᲁ' 'ᲁ'], .lit [' '], .grp 1 (.number), .lit [' '], .cls false [.rng 'Ч' 'Ч', .rng 'ч' 'ч'], .cls false [.rng 'А' 'А', .rng 'а' 'а'], .cls false [.rng 'С' 'С', .rng 'с' 'с', .rng 'ᲃ' 'ᲃ']], [.ref 1, .lit [' ', 'h', 'o', 'u', 'r', ' ', 'a', 'g', 'o']]),
    (.seqs [.cls false [.rng 'З' 'З', .rng 'з' 'з'], .cls false [.rng 'А' 'А', .rng 'а' 'а'], .lit [' '], .grp 1 (.number), .lit [' '], .cls false [.rng 'Д' 'Д', .rng 'д' 'д', .rng 'ᲁ' 'ᲁ'], .cls false [.rng 'Е' 'Е', .rng 'е' 'е'], .cls false [.rng 'Н' 'Н', .rng 'н' 'н'], .cls false [.rng 'А' 'А', .rng 'а' 'а']], [.lit ['i', 'n', ' '], .ref 1, .lit [' ', 'd', 'a', 'y']]),
    (.seqs [.cls false [.rng 'З' 'З', .rng 'з' 'з'], .cls false [.rng 'А' 'А', .rng 'а' 'а'], .lit [' '], .grp 1 (.number), .lit [' '], .cls false [.rng 'Ч' 'Ч', .rng 'ч' 'ч'], .cls false [.rng 'А' 'А', .rng 'а' 'а'], .cls false [.rng 'С' 'С', .rng 'с' 'с', .rng 'ᲃ' 'ᲃ'], .cls false [.rng 'А' 'А', .rng 'а' 'а']], [.lit ['i', 'n', ' '], .ref 1, .lit [' ', 'h', 'o', 'u', 'r']]),
    (.seqs [.cls false [.rng 'З' 'З', .rng 'з' 'з'], .cls false [.rng 'А' 'А', .rng 'а' 'а'], .lit [' '], .grp 1 (.number), .lit [' '], .cls false [.rng 'Д' 'Д', .rng 'д' 'д', .rng 'ᲁ' 'ᲁ'], .cls false [.rng 'Е' 'Е', .rng 'е' 'е'], .cls false [.rng 'Н' 'Н', .rng 'н' 'н']], [.lit ['i', 'n', ' '], .ref 1, .lit [' ', 'd', 'a', 'y']]),
    (.seqs [.cls false [.rng 'З' 'З', .rng 'з' 'з'], .cls false [.rng 'А' 'А', .rng 'а' 'а'], .lit [' '], .grp 1 (.number), .lit [' '], .cls false [.rng 'Ч' 'Ч', .rng 'ч' 'ч'], .cls false [.rng 'А' 'А', .rng 'а' 'а'], .cls false [.rng 'С' 'С', .rng 'с' 'с', .rng 'ᲃ' 'ᲃ']], [.lit ['i', 'n', ' '], .ref 1, .lit [' ', 'h', 'o', 'u', 'r']])],
  rxCombined := some (.seqs [.grp 1 (.alts [.bos, .cls true [.letter, .mark, .digit], .lit ['_']]), .grp 2 (.alts [.seqs [.cls false [.rng 'П' 'П', .rng 'п' 'п'], .cls false [.rng 'Р' 'Р', .rng 'р' 'р'], .cls false [.rng 'Е' 'Е', .rng 'е' 'е'], .cls false [.rng 'Д' 'Д', .rng 'д' 'д', .rng 'ᲁ' 'ᲁ'], .lit [' '], .number, .lit [' '], .cls false [.rng 'С' 'С', .rng 'с' 'с', .rng 'ᲃ' 'ᲃ'], .cls false [.rng 'Е' 'Е', .rng 'е' 'е'], .cls false [.rng 'Д' 'Д', .rng 'д' 'д', .rng 'ᲁ' 'ᲁ'], .cls false [.rng 'М' 'М', .rng 'м' 'м'], .cls false [.rng 'И' 'И', .rng 'и' 'и'], .cls false [.rng 'Ц' 'Ц', .rng 'ц' 'ц'], .cls false [.rng 'А' 'А', .rng 'а' 'а']], .seqs [.cls false [.rng 'П' 'П', .rng 'п' 'п'], .cls false [.rng 'Р' 'Р', .rng 'р' 'р'], .cls false [.rng 'Е' 'Е', .rng 'е' 'е'], .cls false [.rng 'Д' 'Д', .rng 'д' 'д', .rng 'ᲁ' 'ᲁ'], .lit [' '], .number, .lit [' '], .cls false [.rng 'С' 'С', .rng 'с' 'с', .rng 'ᲃ' 'ᲃ'], .cls false [.rng 'Е' 'Е', .rng 'е' 'е'], .cls false [.rng 'Д' 'Д', .rng 'д' 'д', .rng 'ᲁ' 'ᲁ'], .cls false [.rng 'М' 'М', .rng 'м' 'м'], .cls false [.rng 'И' 'И', .rng 'и' 'и'], .cls false [.rng 'Ц' 'Ц', .rng 'ц' 'ц'], .cls false [.rng 'И' 'И', .rng 'и' 'и']], .seqs [.cls false [.rng 'П' 'П', .rng 'п' 'п'], .cls false [.rng 'Р' 'Р', .rng 'р' 'р'], .cls false [.rng 'Е' 'Е', .rng 'е' 'е'], .cls false [.rng 'Д' 'Д', .rng 'д' 'д', .rng 'ᲁ' 'ᲁ'], .lit [' '], .number, .lit [' '], .cls false [.rng 'С' 'С', .rng 'с' 'с', .rng 'ᲃ' 'ᲃ'], .cls false [.rng 'Е' 'Е', .rng 'е' 'е'], .cls false [.rng 'К' 'К', .rng 'к' 'к'], .cls false [.rng 'У' 'У', .rng 'у' 'у'], .cls false [.rng 'Н' 'Н', .rng 'н' 'н'], .cls false [.rng 'Д' 'Д', .rng 'д' 'д', .rng 'ᲁ' 'ᲁ'], .cls false [.rng 'А' 'А', .rng 'а' 'а']], .seqs [.cls false [.rng 'П' 'П', .rng 'п' 'п'], .cls false [.rng 'Р' 'Р', .rng 'р' 'р'], .cls false [.rng 'Е' 'Е', .rng 'е' 'е'], .cls false [.rng 'Д' 'Д', .rng 'д' 'д', .rng 'ᲁ' 'ᲁ'], .lit [' '], .number, .lit [' '], .cls false [.rng 'С' 'С', .rng 'с' 'с', .rng 'ᲃ' 'ᲃ'], .cls false [.rng 'Е' 'Е', .rng 'е' 'е'], .cls false [.rng 'К' 'К', .rng 'к' 'к'], .cls false [.rng 'У' 'У', .rng 'у' 'у'], .cls false [.rng 'Н' 'Н', .rng 'н' 'н'], .cls false [.rng 'Д' 'Д', .rng 'д' 'д', .rng 'ᲁ' 'ᲁ'], .cls false [.rng 'И' 'И', .rng 'и' 'и']], .seqs [.cls false [.rng 'П' 'П', .rng 'п' 'п'], .cls false [.rng 'Р' 'Р', .rng 'р' 'р'], .cls false [.rng 'Е' 'Е', .rng 'е' 'е'], .cls false [.rng 'Д' 'Д', .rng 'д' 'д', .rng 'ᲁ' 'ᲁ'], .lit [' '], .number, .lit [' '], .cls false [.rng 'Г' 'Г', .rng 'г' 'г'], .cls false [.rng 'О' 'О', .rng 'о' 'о', .rng 'ᲂ' 'ᲂ'], .cls false [.rng 'Д' 'Д', .rng 'д' 'д', .rng 'ᲁ' 'ᲁ'], .cls false [.rng 'И' 'И', .rng 'и' 'и'], .cls false [.rng 'Н' 'Н', .rng 'н' 'н'], .cls false [.rng 'А' 'А', .rng 'а' 'а']], .seqs [.cls false [.rng 'П' 'П', .rng 'п' 'п'], .cls false [.rng 'Р' 'Р', .rng 'р' 'р'], .cls false [.rng 'Е' 'Е', .rng 'е' 'е'], .cls false [.rng 'Д' 'Д', .rng 'д' 'д', .rng 'ᲁ' 'ᲁ'], .lit [' '], .number, .lit [' '], .cls false [.rng 'Г' 'Г', .rng 'г' 'г'], .cls false [.rng 'О' 'О', .rng 'о' 'о', .rng 'ᲂ' 'ᲂ'], .cls false [.rng 'Д' 'Д', .rng 'д' 'д', .rng 'ᲁ' 'ᲁ'], .cls false [.rng 'И' 'И', .rng 'и' 'и'], .cls false [.rng 'Н' 'Н', .rng 'н' 'н'], .cls false [.rng 'И' 'И', .rng 'и' 'и']], .seqs [.cls false [.rng 'П' 'П', .rng 'п' 'п'], .cls false [.rng 'Р' 'Р', .rng 'р' 'р'], .cls false [.rng 'Е' 'Е', .rng 'е' 'е'], .cls false [.rng 'Д' 'Д', .rng 'д' 'д', .rng 'ᲁ' 'ᲁ'], .lit [' '], .number, .lit [' '], .cls false [.rng 'М' 'М', .rng 'м' 'м'], .cls false [.rng 'Е' 'Е', .rng 'е' 'е'], .cls false [.rng 'С' 'С', .rng 'с' 'с', .rng 'ᲃ' 'ᲃ'], .cls false [.rng 'Е' 'Е', .rng 'е' 'е'], .cls false [.rng 'Ц' 'Ц', .rng 'ц' 'ц'], .cls false [.rng 'И' 'И', .rng 'и' 'и']], .seqs [.cls false [.rng 'П' 'П', .rng 'п' 'п'], .cls false [.rng 'Р' 'Р', .rng 'р' 'р'], .cls false [.rng 'Е' 'Е', .rng 'е' 'е'], .cls false [.rng 'Д' 'Д', .rng 'д' 'д', .rng 'ᲁ' 'ᲁ'], .lit [' '], .number, .lit [' '], .cls false [.rng 'М' 'М', .rng 'м' 'м'], .cls false [.rng 'И' 'И', .rng 'и' 'и'], .cls false [.rng 'Н' 'Н', .rng 'н' 'н'], .cls false [.rng 'У' 'У', .rng 'у' 'у'], .cls false [.rng 'Т' 'Т', .rng 'т' 'т', .rng 'ᲄ' 'ᲄ', .rng 'ᲅ' 'ᲅ'], .cls false [.rng 'А' 'А', .rng 'а' 'а']], .seqs [.cls false [.rng 'П' 'П', .rng 'п' 'п'], .cls false [.rng 'Р' 'Р', .rng 'р' 'р'], .cls false [.rng 'Е' 'Е', .rng 'е' 'е'], .cls false [.rng 'Д' 'Д', .rng 'д' 'д', .rng 'ᲁ' 'ᲁ'], .lit [' '], .number, .lit [' '], .cls false [.rng 'М' 'М', .rng 'м' 'м'], .cls false [.rng 'И' 'И', .rng 'и' 'и'], .cls false [.rng 'Н' 'Н', .rng 'н' 'н'], .cls false [.rng 'У' 'У', .rng 'у' 'у'], .cls false [.rng 'Т' 'Т', .rng 'т' 'т', .rng 'ᲄ' 'ᲄ', .rng 'ᲅ' 'ᲅ'], .cls false [.rng 'И' 'И', .rng 'и' 'и']], .seqs [.cls false [.rng 'З' 'З', .rng 'з' 'з'], .cls false [.rng 'А' 'А', .rng 'а' 'а'], .lit [' '], .number, .lit [' '], .cls false [.rng 'С' 'С', .rng 'с' 'с', .rng 'ᲃ' 'ᲃ'], .cls false [.rng 'Е' 'Е', .rng 'е' 'е'], .cls false [.rng 'Д' 'Д', .rng 'д' 'д', .rng 'ᲁ' 'ᲁ'], .cls false [.rng 'М' 'М', .rng 'м' 'м'], .cls false [.rng 'И' 'И', .rng 'и' 'и'], .cls false [.rng 'Ц' 'Ц', .rng 'ц' 'ц'], .cls false [.rng 'А' 'А', .rng 'а' 'а']], .seqs [.cls false [.rng 'З' 'З', .rng 'з' 'з'], .cls false [.rng 'А' 'А', .rng 'а' 'а'], .lit [' '], .number, .lit [' '], .cls false [.rng 'С' 'С', .rng 'с' 'с', .rng 'ᲃ' 'ᲃ'], .cls false [.rng 'Е' 'Е', .rng 'е' 'е'], .cls false [.rng 'Д' 'Д', .rng 'д' 'д', .rng 'ᲁ' 'ᲁ'], .cls false [.rng 'М' 'М', .rng 'м' 'м'], .cls false [.rng 'И' 'И', .rng 'и' 'и'], .cls false [.rng 'Ц' 'Ц', .rng 'ц' 'ц'], .cls false [.rng 'И' 'И', .rng 'и' 'и']], .seqs [.cls false [.rng 'З' 'З', .rng 'з' 'з'], .cls false [.rng 'А' 'А', .rng 'а' 'а'], .lit [' '], .number, .lit [' '], .cls false [.rng 'С' 'С', .rng 'с' 'с', .rng 'ᲃ' 'ᲃ'], .cls false [.rng 'Е' 'Е', .rng 'е' 'е'], .cls false [.rng 'К' 'К', .rng 'к' 'к'], .cls false [.rng 'У' 'У', .rng 'у' 'у'], .cls false [.rng 'Н' 'Н', .rng 'н' 'н'], .cls false [.rng 'Д' 'Д', .rng 'д' 'д', .rng 'ᲁ' 'ᲁ'], .cls false [.rng 'А' 'А', .rng 'а' 'а']], .seqs [.cls false [.rng 'З' 'З', .rng 'з' 'з'], .cls false [.rng 'А' 'А', .rng 'а' 'а'], .lit [' '], .number, .lit [' '], .cls false [.rng 'С' 'С', .rng 'с' 'с', .rng 'ᲃ' 'ᲃ'], .cls false [.rng 'Е' 'Е', .rng 'е' 'е'], .cls false [.rng 'К' 'К', .rng 'к' 'к'], .cls false [.rng 'У' 'У', .rng 'у' 'у'], .cls false [.rng 'Н' 'Н', .rng 'н' 'н'], .cls false [.rng 'Д' 'Д', .rng 'д' 'д', .rng 'ᲁ' 'ᲁ'], .cls false [.rng 'И' 'И', .rng 'и' 'и']], .seqs [.cls false [.rng 'П' 'П', .rng 'п' 'п'], .cls false [.rng 'Р' 'Р', .rng 'р' 'р'], .cls false [.rng 'Е' 'Е', .rng 'е' 'е'], .cls false [.rng 'Д' 'Д', .rng 'д' 'д', .rng 'ᲁ' 'ᲁ'], .lit [' '], .number, .lit [' '], .cls false [.rng 'М' 'М', .rng 'м' 'м'], .cls false [.rng 'Е' 'Е', .rng 'е' 'е'], .cls false [.rng 'С' 'С', .rng 'с' 'с', .rng 'ᲃ' 'ᲃ'], .cls false [.rng 'Е' 'Е', .rng 'е' 'е'], .cls false [.rng 'Ц' 'Ц', .rng 'ц' 'ц']], .seqs [.cls false [.rng 'З' 'З', .rng 'з' 'з'], .cls false [.rng 'А' 'А', .rng 'а' 'а'], .lit [' '], .number, .lit [' '], .cls false [.rng 'Г' 'Г', .rng 'г' 'г'], .cls false [.rng 'О' 'О', .rng 'о' 'о', .rng 'ᲂ' 'ᲂ'], .cls false [.rng 'Д' 'Д', .rng 'д' 'д', .rng 'ᲁ' 'ᲁ'], .cls false [.rng 'И' 'И', .rng 'и' 'и'], .cls false [.rng 'Н' 'Н', .rng 'н' 'н'], .cls false [.rng 'А' 'А', .rng 'а' 'а']], .seqs [.cls false [.rng 'З' 'З', .rng 'з' 'з'], .cls false [.rng 'А' 'А', .rng 'а' 'а'], .lit [' '], .number, .lit [' '], .cls false [.rng 'Г' 'Г', .rng 'г' 'г'], .cls false [.rng 'О' 'О', .rng 'о' 'о', .rng 'ᲂ' 'ᲂ'], .cls false [.rng 'Д' 'Д', .rng 'д' 'д', .rng 'ᲁ' 'ᲁ'], .cls false [.rng 'И' 'И', .rng 'и' 'и'], .cls false [.rng 'Н' 'Н', .rng 'н' 'н'], .cls false [.rng 'И' 'И', .rng 'и' 'и']], .seqs [.cls false [.rng 'З' 'З', .rng 'з' 'з'], .cls false [.rng 'А' 'А', .rng 'а' 'а'], .lit [' '], .number, .lit [' '], .cls false [.rng 'М' 'М', .rng 'м' 'м'], .cls false [.rng 'Е' 'Е', .rng 'е' 'е'], .cls false [.rng 'С' 'С', .rng 'с' 'с', .rng 'ᲃ' 'ᲃ'], .cls false [.rng 'Е' 'Е', .rng 'е' 'е'], .cls false [.rng 'Ц' 'Ц', .rng 'ц' 'ц'], .cls false [.rng 'И' 'И', .rng 'и' 'и']], .seqs [.cls false [.rng 'З' 'З', .rng 'з' 'з'], .cls false [.rng 'А' 'А', .rng 'а' 'а'], .lit [' '], .number, .lit [' '], .cls false [.rng 'М' 'М', .rng 'м' 'м'], .cls false [.rng 'И' 'И', .rng 'и' 'и'], .cls false [.rng 'Н' 'Н', .rng 'н' 'н'], .cls false [.rng 'У' 'У', .rng 'у' 'у'], .cls false [.rng 'Т' 'Т', .rng 'т' 'т', .rng 'ᲄ' 'ᲄ', .rng 'ᲅ' 'ᲅ'], .cls false [.rng 'А' 'А', .rng 'а' 'а']], .seqs [.cls false [.rng 'З' 'З', .rng 'з' 'з'], .cls false [.rng 'А' 'А', .rng 'а' 'а'], .lit [' '], .number, .lit [' '], .cls false [.rng 'М' 'М', .rng 'м' 'м'], .cls false [.rng 'И' 'И', .rng 'и' 'и'], .cls false [.rng 'Н' 'Н', .rng 'н' 'н'], .cls false [.rng 'У' 'У', .rng 'у' 'у'], .cls false [.rng 'Т' 'Т', .rng 'т' 'т', .rng 'ᲄ' 'ᲄ', .rng 'ᲅ' 'ᲅ'], .cls false [.rng 'И' 'И', .rng 'и' 'и']], .seqs [.cls false [.rng 'П' 'П', .rng 'п' 'п'], .cls false [.rng 'Р' 'Р', .rng 'р' 'р'], .cls false [.rng 'Е' 'Е', .rng 'е' 'е'], .cls false [.rng 'Д' 'Д', .rng 'д' 'д', .rng 'ᲁ' 'ᲁ'], .lit [' '], .number, .lit [' '], .cls false [.rng 'Д' 'Д', .rng 'д' 'д', .rng 'ᲁ' 'ᲁ'], .cls false [.rng 'Е' 'Е', .rng 'е' 'е'], .cls false [.rng 'Н' 'Н', .rng 'н' 'н'], .cls false [.rng 'А' 'А', .rng 'а' 'а']], .seqs [.cls false [.rng 'П' 'П', .rng 'п' 'п'], .cls false [.rng 'Р' 'Р', .rng 'р' 'р'], .cls false [.rng 'Е' 'Е', .rng 'е' 'е'], .cls false [.rng 'Д' 'Д', .rng 'д' 'д', .rng 'ᲁ' 'ᲁ'], .lit [' '], .number, .lit [' '], .cls false [.rng 'Ч' 'Ч', .rng 'ч' 'ч'], .cls false [.rng 'А' 'А', .rng 'а' 'а'], .cls false [.rng 'С' 'С', .rng 'с' 'с', .rng 'ᲃ' 'ᲃ'], .cls false [.rng 'А' 'А', .rng 'а' 'а']], .seqs [.cls false [.rng 'З' 'З', .rng 'з' 'з'], .cls false [.rng 'А' 'А', .rng 'а' 'а'], .lit [' '], .number, .lit [' '], .cls false [.rng 'М' 'М', .rng 'м' 'м'], .cls false [.rng 'Е' 'Е', .rng 'е' 'е'], .cls false [.rng 'С' 'С', .rng 'с' 'с', .rng 'ᲃ' 'ᲃ'], .cls false [.rng 'Е' 'Е', .rng 'е' 'е'], .cls false [.rng 'Ц' 'Ц', .rng 'ц' 'ц']], .seqs [.cls false [.rng 'П' 'П', .rng 'п' 'п'], .cls false [.rng 'Р' 'Р', .rng 'р' 'р'], .cls false [.rng 'Е' 'Е', .rng 'е' 'е'], .cls false [.rng 'Д' 'Д', .rng 'д' 'д', .rng 'ᲁ' 'ᲁ'], .lit [' '], .number, .lit [' '], .cls false [.rng 'Д' 'Д', .rng 'д' 'д', .rng 'ᲁ' 'ᲁ'], .cls false [.rng 'Е' 'Е', .rng 'е' 'е'], .cls false [.rng 'Н' 'Н', .rng 'н' 'н']], .seqs [.cls false [.rng 'П' 'П', .rng 'п' 'п'], .cls false [.rng 'Р' 'Р', .rng 'р' 'р'], .cls false [.rng 'Е' 'Е', .rng 'е' 'е'], .cls false [.rng 'Д' 'Д', .rng 'д' 'д', .rng 'ᲁ' 'ᲁ'], .lit [' '], .number, .lit [' '], .cls false [.rng 'Ч' 'Ч', .rng 'ч' 'ч'], .cls false [.rng 'А' 'А', .rng 'а' 'а'], .cls false [.rng 'С' 'С', .rng 'с' 'с', .rng 'ᲃ' 'ᲃ']], .seqs [.cls false [.rng 'З' 'З', .rng 'з' 'з'], .cls false [.rng 'А' 'А', .rng 'а' 'а'], .lit [' '], .number, .lit [' '], .cls false [.rng 'Д' 'Д', .rng 'д' 'д', .rng 'ᲁ' 'ᲁ'], .cls false [.rng 'Е' 'Е', .rng 'е' 'е'], .cls false [.rng 'Н' 'Н', .rng 'н' 'н'], .cls false [.rng 'А' 'А', .rng 'а' 'а']], .seqs [.cls false [.rng 'З' 'З', .rng 'з' 'з'], .cls false [.rng 'А' 'А', .rng 'а' 'а'], .lit [' '], .number, .lit [' '], .cls false [.rng 'Ч' 'Ч', .rng 'ч' 'ч'], .cls false [.rng 'А' 'А', .rng 'а' 'а'], .cls false [.rng 'С' 'С', .rng 'с' 'с', .rng 'ᲃ' 'ᲃ'], .cls false [.rng 'А' 'А', .rng 'а' 'а']], .seqs [.cls false [.rng 'З' 'З', .rng 'з' 'з'], .cls false [.rng 'А' 'А', .rng 'а' 'а'], .lit [' '], .number, .lit [' '], .cls false [.rng 'Д' 'Д', .rng 'д' 'д', .rng 'ᲁ' 'ᲁ'], .cls false [.rng 'Е' 'Е', .rng 'е' 'е'], .cls false [.rng 'Н' 'Н', .rng 'н' 'н']], .seqs [.cls false [.rng 'З' 'З', .rng 'з' 'з'], .cls false [.rng 'А' 'А', .rng 'а' 'а'], .lit [' '], .number, .lit [' '], .cls false [.rng 'Ч' 'Ч', .rng 'ч' 'ч'], .cls false [.rng 'А' 'А', .rng 'а' 'а'], .cls false [.rng 'С' 'С', .rng 'с' 'с', .rng 'ᲃ' 'ᲃ']]]), .grp 3 (.alts [.eos, .cls true [.letter, .mark, .digit], .lit ['_']])], 3),
  rxExact := some (.seqs [.bos, .grp 1 (.alts [.seqs [.cls false [.rng 'П' 'П', .rng 'п' 'п'], .cls false [.rng 'Р' 'Р', .rng 'р' 'р'], .cls false [.rng 'Е' 'Е', .rng 'е' 'е'], .cls false [.rng 'Д' 'Д', .rng 'д' 'д', .rng 'ᲁ' 'ᲁ'], .lit [' '], .number, .lit [' '], .cls false [.rng 'С' 'С', .rng 'с' 'с', .rng 'ᲃ' 'ᲃ'], .cls false [.rng 'Е' 'Е', .rng 'е' 'е'], .cls false [.rng 'Д' 'Д', .rng 'д' 'д', .rng 'ᲁ' 'ᲁ'], .cls false [.rng 'М' 'М', .rng 'м' 'м'], .cls false [.rng 'И' 'И', .rng 'и' 'и'], .cls false [.rng 'Ц' 'Ц', .rng 'ц' 'ц'], .cls false [.rng 'А' 'А', .rng 'а' 'а']], .seqs [.cls false [.rng 'П' 'П', .rng 'п' 'п'], .cls false [.rng 'Р' 'Р', .rng 'р' 'р'], .cls false [.rng 'Е' 'Е', .rng 'е' 'е'], .cls false [.rng 'Д' 'Д', .rng 'д' 'д', .rng 'ᲁ' 'ᲁ'], .lit [' '], .number, .lit [' '], .cls false [.rng 'С' 'С', .rng 'с' 'с', .rng 'ᲃ' 'ᲃ'], .cls false [.rng 'Е' 'Е', .rng 'е' 'е'], .cls false [.rng 'Д' 'Д', .rng 'д' 'д', .rng 'ᲁ' 'ᲁ'], .cls false [.rng 'М' 'М', .rng 'м' 'м'], .cls false [.rng 'И' 'И', .rng 'и' 'и'], .cls false [.rng 'Ц' 'Ц', .rng 'ц' 'ц'], .cls false [.rng 'И' 'И', .rng 'и' 'и']], .seqs [.cls false [.rng 'П' 'П', .rng 'п' 'п'], .cls false [.rng 'Р' 'Р', .rng 'р' 'р'], .cls false [.rng 'Е' 'Е', .rng 'е' 'е'], .cls false [.rng 'Д' 'Д', .rng 'д' 'д', .rng 'ᲁ' 'ᲁ'], .lit [' '], .number, .lit [' '], .cls false [.rng 'С' 'С', .rng 'с' 'с', .rng 'ᲃ' 'ᲃ'], .cls false [.rng 'Е' 'Е', .rng 'е' 'е'], .cls false [.rng 'К' 'К', .rng 'к' 'к'], .cls false [.rng 'У' 'У', .rng 'у' 'у'], .cls false [.rng 'Н' 'Н', .rng 'н' 'н'], .cls false [.rng 'Д' 'Д', .rng 'д' 'д', .rng 'ᲁ' 'ᲁ'], .cls false [.rng 'А' 'А', .rng 'а' 'а']], .seqs [.cls false [.rng 'П' 'П', .rng 'п' 'п'], .cls false [.rng 'Р' 'Р', .rng 'р' 'р'], .cls false [.rng 'Е' 'Е', .rng 'е' 'е'], .cls false [.rng 'Д' 'Д', .rng 'д' 'д', .rng 'ᲁ' 'ᲁ'], .lit [' '], .number, .lit [' '], .cls false [.rng 'С' 'С', .rng 'с' 'с', .rng 'ᲃ' 'ᲃ'], .cls false [.rng 'Е' 'Е', .rng 'е' 'е'], .cls false [.rng 'К' 'К', .rng 'к' 'к'], .cls false [.rng 'У' 'У', .rng 'у' 'у'], .cls false [.rng 'Н' 'Н', .rng 'н' 'н'], .cls false [.rng 'Д' 'Д', .rng 'д' 'д', .rng 'ᲁ' 'ᲁ'], .cls false [.rng 'И' 'И', .rng 'и' 'и']], .seqs [.cls false [.rng 'П' 'П', .rng 'п' 'п'], .cls false [.rng 'Р' 'Р', .rng 'р' 'р'], .cls false [.rng 'Е' 'Е', .rng 'е' 'е'], .cls false [.rng 'Д' 'Д', .rng 'д' 'д', .rng 'ᲁ' 'ᲁ'], .lit [' '], .number, .lit [' '], .cls false [.rng 'Г' 'Г', .rng 'г' 'г'], .cls false [.rng 'О' 'О', .rng 'о' 'о', .rng 'ᲂ' 'ᲂ'], .cls false [.rng 'Д' 'Д', .rng 'д' 'д', .rng 'ᲁ' 'ᲁ'], .cls false [.rng 'И' 'И', .rng 'и' 'и'], .cls false [.rng 'Н' 'Н', .rng 'н' 'н'], .cls false [.rng 'А' 'А', .rng 'а' 'а']], .seqs [.cls false [.rng 'П' 'П', .rng 'п' 'п'], .cls false [.rng 'Р' 'Р', .rng 'р' 'р'], .cls false [.rng 'Е' 'Е', .rng 'е' 'е'], .cls false [.rng 'Д' 'Д', .rng 'д' 'д', .rng 'ᲁ' 'ᲁ'], .lit [' '], .number, .lit [' '], .cls false [.rng 'Г' 'Г', .rng 'г' 'г'], .cls false [.rng 'О' 'О', .rng 'о' 'о', .rng 'ᲂ' 'ᲂ'], .cls false [.rng 'Д' 'Д', .rng 'д' 'д', .rng 'ᲁ' 'ᲁ'], .cls false [.rng 'И' 'И', .rng 'и' 'и'], .cls false [.rng 'Н' 'Н', .rng 'н' 'н'], .cls false [.rng 'И' 'И', .rng 'и' 'и']], .seqs [.cls false [.rng 'П' 'П', .rng 'п' 'п'], .cls false [.rng 'Р' 'Р', .rng 'р' 'р'], .cls false [.rng 'Е' 'Е', .rng 'е' 'е'], .cls false [.rng 'Д' 'Д', .rng 'д' 'д', .rng 'ᲁ' 'ᲁ'], .lit [' '], .number, .lit [' '], .cls false [.rng 'М' 'М', .rng 'м' 'м'], .cls false [.rng 'Е' 'Е', .rng 'е' 'е'], .cls false [.rng 'С' 'С', .rng 'с' 'с', .rng 'ᲃ' 'ᲃ'], .cls false [.rng 'Е' 'Е', .rng 'е' 'е'], .cls false [.rng 'Ц' 'Ц', .rng 'ц' 'ц'], .cls false [.rng 'И' 'И', .rng 'и' 'и']], .seqs [.cls false [.rng 'П' 'П', .rng 'п' 'п'], .cls false [.rng 'Р' 'Р', .rng 'р' 'р'], .cls false [.rng 'Е' 'Е', .rng 'е' 'е'], .cls false [.rng 'Д' 'Д', .rng 'д' 'д', .rng 'ᲁ' 'ᲁ'], .lit [' '], .number, .lit [' '], .cls false [.rng 'М' 'М', .rng 'м' 'м'], .cls false [.rng 'И' 'И', .rng 'и' 'и'], .cls false [.rng 'Н' 'Н', .rng 'н' 'н'], .cls false [.rng 'У' 'У', .rng 'у' 'у'], .cls false [.rng 'Т' 'Т', .rng 'т' 'т', .rng 'ᲄ' 'ᲄ', .rng 'ᲅ' 'ᲅ'], .cls false [.rng 'А' 'А', .rng 'а' 'а']], .seqs [.cls false [.rng 'П' 'П', .rng 'п' 'п'], .cls false [.rng 'Р' 'Р', .rng 'р' 'р'], .cls false [.rng 'Е' 'Е', .rng 'е' 'е'], .cls false [.rng 'Д' 'Д', .rng 'д' 'д', .rng 'ᲁ' 'ᲁ'], .lit [' '], .number, .lit [' '], .cls false [.rng 'М' 'М', .rng 'м' 'м'], .cls false [.rng 'И' 'И', .rng 'и' 'и'], .cls false [.rng 'Н' 'Н', .rng 'н' 'н'], .cls false [.rng 'У' 'У', .rng 'у' 'у'], .cls false [.rng 'Т' 'Т', .rng 'т' 'т', .rng 'ᲄ' 'ᲄ', .rng 'ᲅ' 'ᲅ'], .cls false [.rng 'И' 'И', .rng 'и' 'и']], .seqs [.cls false [.rng 'З' 'З', .rng 'з' 'з'], .cls false [.rng 'А' 'А', .rng 'а' 'а'], .lit [' '], .number, .lit [' '], .cls false [.rng 'С' 'С', .rng 'с' 'с', .rng 'ᲃ' 'ᲃ'], .cls false [.rng 'Е' 'Е', .rng 'е' 'е'], .cls false [.rng 'Д' 'Д', .rng 'д' 'д', .rng 'ᲁ' 'ᲁ'], .cls false [.rng 'М' 'М', .rng 'м' 'м'], .cls false [.rng 'И' 'И', .rng 'и' 'и'], .cls false [.rng 'Ц' 'Ц', .rng 'ц' 'ц'], .cls false [.rng 'А' 'А', .rng 'а' 'а']], .seqs [.cls false [.rng 'З' 'З', .rng 'з' 'з'], .cls false [.rng 'А' 'А', .rng 'а' 'а'], .lit [' '], .number, .lit [' '], .cls false [.rng 'С' 'С', .rng 'с' 'с', .rng 'ᲃ' 'ᲃ'], .cls false [.rng 'Е' 'Е', .rng 'е' 'е'], .cls false [.rng 'Д' 'Д', .rng 'д' 'д', .rng 'ᲁ' 'ᲁ'], .cls false [.rng 'М' 'М', .rng 'м' 'м'], .cls false [.rng 'И' 'И', .rng 'и' 'и'], .cls false [.rng 'Ц' 'Ц', .rng 'ц' 'ц'], .cls false [.rng 'И' 'И', .rng 'и' 'и']], .seqs [.cls false [.rng 'З' 'З', .rng 'з' 'з'], .cls false [.rng 'А' 'А', .rng 'а' 'а'], .lit [' '], .number, .lit [' '], .cls false [.rng 'С' 'С', .rng 'с' 'с', .rng 'ᲃ' 'ᲃ'], .cls false [.rng 'Е' 'Е', .rng 'е' 'е'], .cls false [.rng 'К' 'К', .rng 'к' 'к'], .cls false [.rng 'У' 'У', .rng 'у' 'у'], .cls false [.rng 'Н' 'Н', .rng 'н' 'н'], .cls false [.rng 'Д' 'Д', .rng 'д' 'д', .rng 'ᲁ' 'ᲁ'], .cls false [.rng 'А' 'А', .rng 'а' 'а']], .seqs [.cls false [.rng 'З' 'З', .rng 'з' 'з'], .cls false [.rng 'А' 'А', .rng 'а' 'а'], .lit [' '], .number, .lit [' '], .cls false [.rng 'С' 'С', .rng 'с' 'с', .rng 'ᲃ' 'ᲃ'], .cls false [.rng 'Е' 'Е', .rng 'е' 'е'], .cls false [.rng 'К' 'К', .rng 'к' 'к'], .cls false [.rng 'У' 'У', .rng 'у' 'у'], .cls false [.rng 'Н' 'Н', .rng 'н' 'н'], .cls false [.rng 'Д' 'Д', .rng 'д' 'д', .rng 'ᲁ' 'ᲁ'], .cls false [.rng 'И' 'И', .rng 'и' 'и']], .seqs [.cls false [.rng 'П' 'П', .rng 'п' 'п'], .cls false [.rng 'Р' 'Р', .rng 'р' 'р'], .cls false [.rng 'Е' 'Е', .rng 'е' 'е'], .cls false [.rng 'Д' 'Д', .rng 'д' 'д', .rng 'ᲁ' 'ᲁ'], .lit [' '], .number, .lit [' '], .cls false [.rng 'М' 'М', .rng 'м' 'м'], .cls false [.rng 'Е' 'Е', .rng 'е' 'е'], .cls false [.rng 'С' 'С', .rng 'с' 'с', .rng 'ᲃ' 'ᲃ'], .cls false [.rng 'Е' 'Е', .rng 'е' 'е'], .cls false [.rng 'Ц' 'Ц', .rng 'ц' 'ц']], .seqs [.cls false [.rng 'З' 'З', .rng 'з' 'з'], .cls false [.rng 'А' 'А', .rng 'а' 'а'], .lit [' '], .number, .lit [' '], .cls false [.rng 'Г' 'Г', .rng 'г' 'г'], .cls false [.rng 'О' 'О', .rng 'о' 'о', .rng 'ᲂ' 'ᲂ'], .cls false [.rng 'Д' 'Д', .rng 'д' 'д', .rng 'ᲁ' 'ᲁ'], .cls false [.rng 'И' 'И', .rng 'и' 'и'], .cls false [.rng 'Н' 'Н', .rng 'н' 'н'], .cls false [.rng 'А' 'А', .rng 'а' 'а']], .seqs [.cls false [.rng 'З' 'З', .rng 'з' 'з'], .cls false [.rng 'А' 'А', .rng 'а' 'а'], .lit [' '], .number, .lit [' '], .cls false [.rng 'Г' 'Г', .rng 'г' 'г'], .cls false [.rng 'О' 'О', .rng 'о' 'о', .rng 'ᲂ' 'ᲂ'], .cls false [.rng 'Д' 'Д', .rng 'д' 'д', .rng 'ᲁ' 'ᲁ'], .cls false [.rng 'И' 'И', .rng 'и' 'и'], .cls false [.rng 'Н' 'Н', .rng 'н' 'н'], .cls false [.rng 'И' 'И', .rng 'и' 'и']], .seqs [.cls false [.rng 'З' 'З', .rng 'з' 'з'], .cls false [.rng 'А' 'А', .rng 'а' 'а'], .lit [' '], .number, .lit [' '], .cls false [.rng 'М' 'М', .rng 'м' 'м'], .cls false [.rng 'Е' 'Е', .rng 'е' 'е'], .cls false [.rng 'С' 'С', .rng 'с' 'с', .rng 'ᲃ' 'ᲃ'], .cls false [.rng 'Е' 'Е', .rng 'е' 'е'], .cls false [.rng 'Ц' 'Ц', .rng 'ц' 'ц'], .cls false [.rng 'И' 'И', .rng 'и' 'и']], .seqs [.cls false [.rng 'З' 'З', .rng 'з' 'з'], .cls false [.rng 'А' 'А', .rng 'а' 'а'], .lit [' '], .number, .lit [' '], .cls false [.rng 'М' 'М', .rng 'м' 'м'], .cls false [.rng 'И' 'И', .rng 'и' 'и'], .cls false [.rng 'Н' 'Н', .rng 'н' 'н'], .cls false [.rng 'У' 'У', .rng 'у' 'у'], .cls false [.rng 'Т' 'Т', .rng 'т' 'т', .rng 'ᲄ' 'ᲄ', .rng 'ᲅ' 'ᲅ'], .cls false [.rng 'А' 'А', .rng 'а' 'а']], .seqs [.cls false [.rng 'З' 'З', .rng 'з' 'з'], .cls false [.rng 'А' 'А', .rng 'а' 'а'], .lit [' '], .number, .lit [' '], .cls false [.rng 'М' 'М', .rng 'м' 'м'], .cls false [.rng 'И' 'И', .rng 'и' 'и'], .cls false [.rng 'Н' 'Н', .rng 'н' 'н'], .cls false [.rng 'У' 'У', .rng 'у' 'у'], .cls false [.rng 'Т' 'Т', .rng 'т' 'т', .rng 'ᲄ' 'ᲄ', .rng 'ᲅ' 'ᲅ'], .cls false [.rng 'И' 'И', .rng 'и' 'и']], .seqs [.cls false [.rng 'П' 'П', .rng 'п' 'п'], .cls false [.rng 'Р' 'Р', .rng 'р' 'р'], .cls false [.rng 'Е' 'Е', .rng 'е' 'е'], .cls false [.rng 'Д' 'Д', .rng 'д' 'д', .rng 'ᲁ' 'ᲁ'], .lit [' '], .number, .lit [' '], .cls false [.rng 'Д' 'Д', .rng 'д' 'д', .rng 'ᲁ' 'ᲁ'], .cls false [.rng 'Е' 'Е', .rng 'е' 'е'], .cls false [.rng 'Н' 'Н', .rng 'н' 'н'], .cls false [.rng 'А' 'А', .rng 'а' 'а']], .seqs [.cls false [.rng 'П' 'П', .rng 'п' 'п'], .cls false [.rng 'Р' 'Р', .rng 'р' 'р'], .cls false [.rng 'Е' 'Е', .rng 'е' 'е'], .cls false [.rng 'Д' 'Д', .rng 'д' 'д', .rng 'ᲁ' 'ᲁ'], .lit [' '], .number, .lit [' '], .cls false [.rng 'Ч' 'Ч', .rng 'ч' 'ч'], .cls false [.rng 'А' 'А', .rng 'а' 'а'], .cls false [.rng 'С' 'С', .rng 'с' 'с', .rng 'ᲃ' 'ᲃ'], .cls false [.rng 'А' 'А', .rng 'а' 'а']], .seqs [.cls false [.rng 'З' 'З', .rng 'з' 'з'], .cls false [.rng 'А' 'А', .rng 'а' 'а'], .lit [' '], .number, .lit [' '], .cls false [.rng 'М' 'М', .rng 'м' 'м'], .cls false [.rng 'Е' 'Е', .rng 'е' 'е'], .cls false [.rng 'С' 'С', .rng 'с' 'с', .rng 'ᲃ' 'ᲃ'], .cls false [.rng 'Е' 'Е', .rng 'е' 'е'], .cls false [.rng 'Ц' 'Ц', .rng 'ц' 'ц']], .seqs [.cls false [.rng 'П' 'П', .rng 'п' 'п'], .cls false [.rng 'Р' 'Р', .rng 'р' 'р'], .cls false [.rng 'Е' 'Е', .rng 'е' 'е'], .cls false [.rng 'Д' 'Д', .rng 'д' 'д', .rng 'ᲁ' 'ᲁ'], .lit [' '], .number, .lit [' '], .cls false [.rng 'Д' 'Д', .rng 'д' 'д', .rng 'ᲁ' 'ᲁ'], .cls false [.rng 'Е' 'Е', .rng 'е' 'е'], .cls false [.rng 'Н' 'Н', .rng 'н' 'н']], .seqs [.cls false [.rng 'П' 'П', .rng 'п' 'п'], .cls false [.rng 'Р' 'Р', .rng 'р' 'р'], .cls false [.rng 'Е' 'Е', .rng 'е' 'е'], .cls false [.rng 'Д' 'Д', .rng 'д' 'д', .rng 'ᲁ' 'ᲁ'], .lit [' '], .number, .lit [' '], .cls false [.rng 'Ч' 'Ч', .rng 'ч' 'ч'], .cls false [.rng 'А' 'А', .rng 'а' 'а'], .cls false [.rng 'С' 'С', .rng 'с' 'с', .rng 'ᲃ' 'ᲃ']], .seqs [.cls false [.rng 'З' 'З', .rng 'з' 'з'], .cls false [.rng 'А' 'А', .rng 'а' 'а'], .lit [' '], .number, .lit [' '], .cls false [.rng 'Д' 'Д', .rng 'д' 'д', .rng 'ᲁ' 'ᲁ'], .cls false [.rng 'Е' 'Е', .rng 'е' 'е'], .cls false [.rng 'Н' 'Н', .rng 'н' 'н'], .cls false [.rng 'А' 'А', .rng 'а' 'а']], .seqs [.cls false [.rng 'З' 'З', .rng 'з' 'з'], .cls false [.rng 'А' 'А', .rng 'а' 'а'], .lit [' '], .number, .lit [' '], .cls false [.rng 'Ч' 'Ч', .rng 'ч' 'ч'], .cls false [.rng 'А' 'А', .rng 'а' 'а'], .cls false [.rng 'С' 'С', .rng 'с' 'с', .rng 'ᲃ' 'ᲃ'], .cls false [.rng 'А' 'А', .rng 'а' 'а']], .seqs [.cls false [.rng 'З' 'З', .rng 'з' 'з'], .cls false [.rng 'А' 'А', .rng 'а' 'а'], .lit [' '], .number, .lit [' '], .cls false [.rng 'Д' 'Д', .rng 'д' 'д', .rng 'ᲁ' 'ᲁ'], .cls false [.rng 'Е' 'Е', .rng 'е' 'е'], .cls false [.rng 'Н' 'Н', .rng 'н' 'н']], .seqs [.cls false [.rng 'З' 'З', .rng 'з' 'з'], .cls false [.rng 'А' 'А', .rng 'а' 'а'], .lit [' '], .number, .lit [' '], .cls false [.rng 'Ч' 'Ч', .rng 'ч' 'ч'], .cls false [.rng 'А' 'А', .rng 'а' 'а'], .cls false [.rng 'С' 'С', .rng 'с' 'с', .rng 'ᲃ' 'ᲃ']]]), .eos]),
  knownWords :=
   [['м', 'и', 'н', 'а', 'т', 'а', 'т', 'а', ' ', 'с', 'е', 'д', 'м', 'и', 'ц', 'а'], ['с', 'л', 'е', 'д', 'н', 'а', 'т', 'а', ' ', 'с', 'е', 'д', 'м', 'и', 'ц', 'а'], ['м', 'и', 'н', 'а', 'т', 'а', 'т', 'а', ' ', 'г', 'о', 'д', 'и', 'н', 'а'], ['с', 'л', 'е', 'д', 'н', 'а', 'т', 'а', ' ', 'г', 'о', 'д', 'и', 'н', 'а'], ['м', 'и', 'н', 'а', 'т', 'и', 'о', 'т', ' ', 'м', 'е', 'с', 'е', 'ц'], ['с', 'л', 'е', 'д', 'н', 'и', 'о', 'т', ' ', 'м', 'е', 'с', 'е', 'ц'], ['о', 'в', 'а', 'а', ' ', 'с', 'е', 'д', 'м', 'и', 'ц', 'а'], ['о', 'в', 'а', 'а', ' ', 'г', 'о', 'д', 'и', 'н', 'а'], ['о', 'в', 'а', 'а', ' ', 'м', 'и', 'н', 'у', 'т', 'а'], ['о', 'в', 'о', 'ј', ' ', 'м', 'е', 'с', 'е', 'ц'], ['п', 'о', 'н', 'е', 'д', 'е', 'л', 'н', 'и', 'к'], ['п', 'р', 'е', 'т', 'п', 'л', 'а', 'д', 'н', 'е'], ['с', 'е', 'п', 'т', 'е', 'м', 'в', 'р', 'и'], ['д', 'е', 'к', 'е', 'м', 'в', 'р', 'и'], ['о', 'к', 'т', 'о', 'м', 'в', 'р', 'и'], ['п', 'о', 'п', 'л', 'а', 'д', 'н', 'е'], ['ф', 'е', 'в', 'р', 'у', 'а', 'р', 'и'], ['ч', 'е', 'т', 'в', 'р', 'т', 'о', 'к'], ['в', 'т', 'о', 'р', 'н', 'и', 'к'], ['н', 'о', 'е', 'м', 'в', 'р', 'и'], ['с', 'е', 'к', 'у', 'н', 'д', 'а'], ['ј', 'а', 'н', 'у', 'а', 'р', 'и'], ['а', 'в', 'г', 'у', 'с', 'т'], ['г', 'о', 'д', 'и', 'н', 'а'], ['м', 'и', 'н', 'у', 'т', 'а'], ['н', 'е', 'д', 'е', 'л', 'а'], ['п', 'р', 'е', 'т', 'п', 'л'], ['с', 'а', 'б', 'о', 'т', 'а'], ['а', 'п', 'р', 'и', 'л'], ['в', 'ч', 'е', 'р', 'а'], ['д', 'е', 'н', 'е', 'с'], ['м', 'е', 'с', 'е', 'ц'], ['п', 'е', 'т', 'о', 'к'], ['с', 'р', 'е', 'д', 'а'], ['ч', 'а', 'с', 'о', 'в'], ['м', 'а', 'р', 'т'], ['н', 'о', 'е', 'м'], ['п', 'о', 'п', 'л'], ['с', 'е', 'г', 'а'], ['с', 'е', 'п', 'т'], ['у', 'т', 'р', 'е'], ['ј', 'у', 'л', 'и'], ['ј', 'у', 'н', 'и'], ['g', 'm', 't'], ['u', 't', 'c'], ['а', 'в', 'г'], ['а', 'п', 'р'], ['в', 'т', 'о'], ['г', 'о', 'д'], ['д', 'е', 'к'], ['д', 'е', 'н'], ['м', 'а', 'р'], ['м', 'а', 'ј'], ['м', 'е', 'с'], ['м', 'и', 'н'], ['н', 'е', 'д'], ['о', 'к', 'т'], ['п', 'е', 'т'], ['п', 'о', 'н'], ['с', 'а', 'б'], ['с', 'е', 'д'], ['с', 'е', 'к'], ['с', 'р', 'е'], ['ф', 'е', 'в'], ['ч', 'а', 'с'], ['ч', 'е', 'т'], ['ј', 'а', 'н'], ['ј', 'у', 'л'], ['ј', 'у', 'н'], ['a', 'm'], ['p', 'm'], ['в', 'т'], [' '], ['\''], ['+'], [','], ['-'], ['.'], ['/'], [':'], [';'], ['@'], ['['], [']'], ['z'], ['|']] }

/-- internal/data/ml.go: `ml_Locale`. -/
def mlLang : LangData := { mlDict with
  relativeRegexes :=
   [(.seqs [.grp 1 (.number), .lit [' ', 'മ', 'ണ', 'ി', 'ക', 'ക', 'ർ', ' ', 'മ', 'മ', 'പ']], [.ref 1, .lit [' ', 'h', 'o', 'u', 'r', ' ', 'a', 'g', 'o']]),
    (.seqs [.grp 1 (.number), .lit [' ', 'മ', 'ി', 'ന', 'ി', 'റ', 'റ', ' ', 'മ', 'മ', 'പ']], [.ref 1, .lit [' ', 'm', 'i', 'n', 'u', 't', 'e', ' ', 'a', 'g', 'o']]),
    (.seqs [.grp 1 (.number), .lit [' ', 'സ', 'െ', 'ക', 'ക', 'ൻ', 'ഡ', ' ', 'മ', 'മ', 'പ']], [.ref 1, .lit [' ', 's', 'e', 'c', 'o', 'n', 'd', ' ', 'a', 'g', 'o']]),
    (.seqs [.grp 1 (.number), .lit [' ', 'ദ', 'ി', 'വ', 'സ', 'ം', ' ', 'മ', 'മ', 'പ']], [.ref 1, .lit [' ', 'd', 'a', 'y', ' ', 'a', 'g', 'o']]),
    (.seqs [.grp 1 (.number), .lit [' ', 'ദ', 'ി', 'വ', 'സ', 'ത', 'ത', 'ി', 'ൽ']], [.lit ['i', 'n', ' '], .ref 1, .lit [' ', 'd', 'a', 'y']]),
    (.seqs [.grp 1 (.number), .lit [' ', 'മ', 'ണ', 'ി', 'ക', 'ക', 'റ', 'ി', 'ൽ']], [.lit ['i', 'n', ' '], .ref 1, .lit [' ', 'h', 'o', 'u', 'r']]),
    (.seqs [.grp 1 (.number), .lit [' ', 'മ', 'ാ', 'സ', 'ം', ' ', 'മ', 'മ', 'പ']], [.ref 1, .lit [' ', 'm', 'o', 'n', 't', 'h', ' ', 'a', 'g', 'o']]),
    (.seqs [.grp 1 (.number), .lit [' ', 'മ', 'ി', 'ന', 'ി', 'റ', 'റ', 'ി', 'ൽ']], [.lit ['i', 'n', ' '], .ref 1, .lit [' ', 'm', 'i', 'n', 'u', 't', 'e']]),
    (.seqs [.grp 1 (.number), .lit [' ', 'വ', 'ർ', 'ഷ', 'ം', ' ', 'മ', 'മ', 'പ']], [.ref 1, .lit [' ', 'y', 'e', 'a', 'r', ' ', 'a', 'g', 'o']]),
    (.seqs [.grp 1 (.number), .lit [' ', 'സ', 'െ', 'ക', 'ക', 'ൻ', 'ഡ', 'ി', 'ൽ']], [.lit ['i', 'n', ' '], .ref 1, .lit [' ', 's', 'e', 'c', 'o', 'n', 'd']]),
    (.seqs [.grp 1 (.number), .lit [' ', 'ആ', 'ഴ', 'ച', ' ', 'മ', 'മ', 'പ']], [.ref 1, .lit [' ', 'w', 'e', 'e', 'k', ' ', 'a', 'g', 'o']]),
    (.seqs [.grp 1 (.number), .lit [' ', 'മ', 'ാ', 'സ', 'ത', 'ത', 'ി', 'ൽ']], [.lit ['i', 'n', ' '], .ref 1, .lit [' ', 'm', 'o', 'n', 't', 'h']]),
    (.seqs [.grp 1 (.number), .lit [' ', 'വ', 'ർ', 'ഷ', 'ത', 'ത', 'ി', 'ൽ']], [.lit ['i', 'n', ' '], .ref 1, .lit [' ', 'y', 'e', 'a', 'r']]),
    (.seqs [.grp 1 (.number), .lit [' ', 'ആ', 'ഴ', 'ച', 'യ', 'ി', 'ൽ']], [.lit ['i', 'n', ' '], .ref 1, .lit [' ', 'w', 'e', 'e', 'k']])],
  rxCombined := some (.seqs [.grp 1 (.alts [.bos, .cls true [.letter, .mark, .digit], .lit ['_']]), .grp 2 (.alts [.seqs [.number, .lit [' ', 'മ', 'ണ', 'ി', 'ക', 'ക', 'ർ', ' ', 'മ', 'മ', 'പ']], .seqs [.number, .lit [' ', 'മ', 'ി', 'ന', 'ി', 'റ', 'റ', ' ', 'മ', 'മ', 'പ']], .seqs [.number, .lit [' ', 'സ', 'െ', 'ക', 'ക', 'ൻ', 'ഡ', ' ', 'മ', 'മ', 'പ']], .seqs [.number, .lit [' ', 'ദ', 'ി', 'വ', 'സ', 'ം', ' ', 'മ', 'മ', 'പ']], .seqs [.number, .lit [' ', 'ദ', 'ി', 'വ', 'സ', 'ത', 'ത', 'ി', 'ൽ']], .seqs [.number, .lit [' ', 'മ', 'ണ', 'ി', 'ക', 'ക', 'റ', 'ി', 'ൽ']], .seqs [.number, .lit [' ', 'മ', 'ാ', 'സ', 'ം', ' ', 'മ', 'മ', 'പ']], .seqs [.number, .lit [' ', 'മ', 'ി', 'ന', 'ി', 'റ', 'റ', 'ി', 'ൽ']], .seqs [.number, .lit [' ', 'വ', 'ർ', 'ഷ', 'ം', ' ', 'മ', 'മ', 'പ']], .seqs [.number, .lit [' ', 'സ', 'െ', 'ക', 'ക', 'ൻ', 'ഡ', 'ി', 'ൽ']], .seqs [.number, .lit [' ', 'ആ', 'ഴ', 'ച', ' ', 'മ', 'മ', 'പ']], .seqs [.number, .lit [' ', 'മ', 'ാ', 'സ', 'ത', 'ത', 'ി', 'ൽ']], .seqs [.number, .lit [' ', 'വ', 'ർ', 'ഷ', 'ത', 'ത', 'ി', 'ൽ']], .seqs [.number, .lit [' ', 'ആ', 'ഴ', 'ച', 'യ', 'ി', 'ൽ']]]), .grp 3 (.alts [.eos, .cls true [.letter, .mark, .digit], .lit ['_']])], 3),
  rxExact := some (.seqs [.bos, .grp 1 (.alts [.seqs [.number, .lit [' ', 'മ', 'ണ', 'ി', 'ക', 'ക', 'ർ', ' ', 'മ', 'മ', 'പ']], .seqs [.number, .lit [' ', 'മ', 'ി', 'ന', 'ി', 'റ', 'റ', ' ', 'മ', 'മ', 'പ']], .seqs [.number, .lit [' ', 'സ', 'െ', 'ക', 'ക', 'ൻ', 'ഡ', ' ', 'മ', 'മ', 'പ']], .seqs [.number, .lit [' ', 'ദ', 'ി', 'വ', 'സ', 'ം', ' ', 'മ', 'മ', 'പ']], .seqs [.number, .lit [' ', 'ദ', 'ി', 'വ', 'സ', 'ത', 'ത', 'ി', 'ൽ']], .seqs [.number, .lit [' ', 'മ', 'ണ', 'ി', 'ക', 'ക', 'റ', 'ി', 'ൽ']], .seqs [.number, .lit [' ', 'മ', 'ാ', 'സ', 'ം', ' ', 'മ', 'മ', 'പ']], .seqs [.number, .lit [' ', 'മ', 'ി', 'ന', 'ി', 'റ', 'റ', 'ി', 'ൽ']], .seqs [.number, .lit [' ', 'വ', 'ർ', 'ഷ', 'ം', ' ', 'മ', 'മ', 'പ']], .seqs [.number, .lit [' ', 'സ', 'െ', 'ക', 'ക', 'ൻ', 'ഡ', 'ി', 'ൽ']], .seqs [.number, .lit [' ', 'ആ', 'ഴ', 'ച', ' ', 'മ', 'മ', 'പ']], .seqs [.number, .lit [' ', 'മ', 'ാ', 'സ', 'ത', 'ത', 'ി', 'ൽ']], .seqs [.number, .lit [' ', 'വ', 'ർ', 'ഷ', 'ത', 'ത', 'ി', 'ൽ']], .seqs [.number, .lit [' ', 'ആ', 'ഴ', 'ച', 'യ', 'ി', 'ൽ']]]), .eos]),
  knownWords :=
   [['ഈ', ' ', 'മ', 'ണ', 'ി', 'ക', 'ക', 'റ', 'ി', 'ൽ'], ['ഈ', ' ', 'മ', 'ി', 'ന', 'ി', 'റ', 'റ', 'ി', 'ൽ'], ['ക', 'ഴ', 'ി', 'ഞ', 'ഞ', ' ', 'ആ', 'ഴ', (Char.ofNat 0x200c), 'ച'], ['ക', 'ഴ', 'ി', 'ഞ', 'ഞ', ' ', 'മ', 'ാ', 'സ', 'ം'], ['ക', 'ഴ', 'ി', 'ഞ', 'ഞ', ' ', 'വ', 'ർ', 'ഷ', 'ം'], ['വ', 'െ', 'ള', 'ള', 'ി', 'യ', 'ാ', 'ഴ', (Char.ofNat 0x200c), 'ച'], ['അ', 'ട', 'ത', 'ത', ' ', 'മ', 'ാ', 'സ', 'ം'], ['ത', 'ി', 'ങ', 'ക', 'ള', 'ാ', 'ഴ', (Char.ofNat 0x200c), 'ച'], ['അ', 'ട', 'ത', 'ത', ' ', 'ആ', 'ഴ', 'ച'], ['അ', 'ട', 'ത', 'ത', 'വ', 'ർ', 'ഷ', 'ം'], ['ച', 'ൊ', 'വ', 'വ', 'ാ', 'ഴ', (Char.ofNat 0x200c), 'ച'], ['ഞ', 'ാ', 'യ', 'റ', 'ാ', 'ഴ', (Char.ofNat 0x200c), 'ച'], ['വ', 'യ', 'ാ', 'ഴ', 'ാ', 'ഴ', (Char.ofNat 0x200c), 'ച'], ['ശ', 'ന', 'ി', 'യ', 'ാ', 'ഴ', (Char.ofNat 0x200c), 'ച'], ['സ', 'െ', 'പ', 'റ', 'റ', 'ം', 'ബ', 'ർ'], ['ഈ', ' ', 'വ', 'ർ', (Char.ofNat 0x200c), 'ഷ', 'ം'], ['ഒ', 'ക', (Char.ofNat 0x200c), 'ട', 'ോ', 'ബ', 'ർ'], ['ച', 'ൊ', 'വ', 'വ', 'ാ', 'ഴ', 'ച'], ['ഫ', 'െ', 'ബ', 'ര', 'വ', 'ര', 'ി'], ['ബ', 'ധ', 'ന', 'ാ', 'ഴ', (Char.ofNat 0x200c), 'ച'], ['ഈ', ' ', 'മ', 'ാ', 'സ', 'ം'], ['ഡ', 'ി', 'സ', 'ം', 'ബ', 'ർ'], ['മ', 'ണ', 'ി', 'ക', 'ക', 'ർ'], ['മ', 'ി', 'ന', 'ി', 'റ', 'റ'], ['സ', 'െ', 'ക', 'ക', 'ൻ', 'ഡ'], ['സ', 'െ', 'പ', 'റ', 'റ', 'ം'], ['ഇ', 'ന', 'ന', 'ല', 'െ'], ['ഇ', 'പ', 'പ', 'ോ', 'ൾ'], ['ഈ', ' ', 'ആ', 'ഴ', 'ച'], ['ഏ', 'പ', 'ര', 'ി', 'ൽ'], ['ഓ', 'ഗ', 'സ', 'റ', 'റ'], ['ജ', 'ന', 'വ', 'ര', 'ി'], ['ത', 'ി', 'ങ', 'ക', 'ൾ'], ['ദ', 'ി', 'വ', 'സ', 'ം'], ['ന', 'വ', 'ം', 'ബ', 'ർ'], ['മ', 'ാ', 'ർ', 'ച', 'ച'], ['വ', 'യ', 'ാ', 'ഴ', 'ം'], ['വ', 'െ', 'ള', 'ള', 'ി'], ['ഏ', 'പ', 'ര', 'ി'], ['ഒ', 'ക', 'ട', 'ോ'], ['ച', 'ൊ', 'വ', 'വ'], ['ഞ', 'ാ', 'യ', 'ർ'], ['ഡ', 'ി', 'സ', 'ം'], ['ന', 'ാ', 'ള', 'െ'], ['ഫ', 'െ', 'ബ', 'ര'], ['മ', 'ാ', 'സ', 'ം'], ['വ', 'ർ', 'ഷ', 'ം'], ['g', 'm', 't'], ['u', 't', 'c'], ['ആ', 'ഴ', 'ച'], ['ഇ', 'ന', 'ന'], ['ജ', 'ല', 'ൈ'], ['ന', 'വ', 'ം'], ['ബ', 'ധ', 'ൻ'], ['മ', 'ാ', 'ർ'], ['മ', 'േ', 'യ'], ['ശ', 'ന', 'ി'], ['a', 'm'], ['p', 'm'], ['ഓ', 'ഗ'], ['ജ', 'ന'], ['ജ', 'ൺ'], ['മ', 'ാ'], ['മ', 'ി'], ['സ', 'െ'], [' '], ['\''], ['+'], [','], ['-'], ['.'], ['/'], [':'], [';'], ['@'], ['['], [']'], ['z'], ['|'], ['ആ'], ['മ'], ['വ']] }

/-- internal/data/mn.go: `mn_Locale`. -/
def mnLang : LangData := { mnDict with
  relativeRegexes :=
   [(.seqs [.grp 1 (.number), .lit [' '], .cls false [.rng 'С' 'С', .rng 'с' 'с', .rng 'ᲃ' 'ᲃ'], .cls false [.rng 'Е' 'Е', .rng 'е' 'е'], .cls false [.rng 'К' 'К', .rng 'к' 'к'], .cls false [.rng 'У' 'У', .rng 'у' 'у'], .cls false [.rng 'Н' 'Н', .rng 'н' 'н'], .cls false [.rng 'Д' 'Д', .rng 'д' 'д', .rng 'ᲁ' 'ᲁ'], .cls false [.rng 'Ы' 'Ы', .rng 'ы' 'ы'], .cls false [.rng 'Н' 'Н', .rng 'н' 'н'], .lit [' '], .cls false [.rng 'Д' 'Д', .rng 'д' 'д', .rng 'ᲁ' 'ᲁ'], .cls false [.rng 'А' 'А', .rng 'а' 'а'], .cls false [.rng 'Р' 'Р', .rng 'р' 'р'], .cls false [.rng 'А' 'А', .rng 'а' 'а'], .cls false [.rng 'А' 'А', .rng 'а' 'а']], [.lit ['i', 'n', ' '], .ref 1, .lit [' ', 's', 'e', 'c', 'o', 'n', 'd']]),
    (.seqs [.grp 1 (.number), .lit [' '], .cls false [.rng 'М' 'М', .rng 'м' 'м'], .cls false [.rng 'И' 'И', .rng 'и' 'и'], .cls false [.rng 'Н' 'Н', .rng 'н' 'н'], .cls false [.rng 'У' 'У', .rng 'у' 'у'], .cls false [.rng 'Т' 'Т', .rng 'т' 'т', .rng 'ᲄ' 'ᲄ', .rng 'ᲅ' 'ᲅ'], .cls false [.rng 'Ы' 'Ы', .rng 'ы' 'ы'], .cls false [.rng 'Н' 'Н', .rng 'н' 'н'], .lit [' '], .cls false [.rng 'Д' 'Д', .rng 'д' 'д', .rng 'ᲁ' 'ᲁ'], .cls false [.rng 'А' 'А', .rng 'а' 'а'], .cls false [.rng 'Р' 'Р', .rng 'р' 'р'], .cls false [.rng 'А' 'А', .rng 'а' 'а'], .cls false [.rng 'А' 'А', .rng 'а' 'а']], [.lit ['i', 'n', ' '], .ref 1, .lit [' ', 'm', 'i', 'n', 'u', 't', 'e']]),
    (.seqs [.grp 1 (.number), .lit [' '], .cls false [.rng 'С' 'С', .rng 'с' 'с', .rng 'ᲃ' 'ᲃ'], .cls false [.rng 'Е' 'Е', .rng 'е' 'е'], .cls false [.rng 'К' 'К', .rng 'к' 'к'], .cls false [.rng 'У' 'У', .rng 'у' 'у'], .cls false [.rng 'Н' 'Н', .rng 'н' 'н'], .cls false [.rng 'Д' 'Д', .rng 'д' 'д', .rng 'ᲁ' 'ᲁ'], .cls false [.rng 'Ы' 'Ы', .rng 'ы' 'ы'], .cls false [.rng 'Н' 'Н', .rng 'н' 'н'], .lit [' '], .cls false [.rng 'Ө' 'Ө', .rng 'ө' 'ө'], .cls false [.rng 'М' 'М', .rng 'м' 'м'], .cls false [.rng 'Н' 'Н', .rng 'н' 'н'], .cls false [.rng 'Ө' 'Ө', .rng 'ө' 'ө']], [.ref 1, .lit [' ', 's', 'e', 'c', 'o', 'n', 'd', ' ', 'a', 'g', 'o']]),
    (.seqs [.grp 1 (.number), .lit [' ', '7'], .cls false [.rng 'Х' 'Х', .rng 'х' 'х'], .lit ['-'], .cls false [.rng 'И' 'И', .rng 'и' 'и'], .cls false [.rng 'И' 'И', .rng 'и' 'и'], .cls false [.rng 'Н' 'Н', .rng 'н' 'н'], .lit [' '], .cls false [.rng 'Д' 'Д', .rng 'д' 'д', .rng 'ᲁ' 'ᲁ'], .cls false [.rng 'А' 'А', .rng 'а' 'а'], .cls false [.rng 'Р' 'Р', .rng 'р' 'р'], .cls false [.rng 'А' 'А', .rng 'а' 'а'], .cls false [.rng 'А' 'А', .rng 'а' 'а']], [.lit ['i', 'n', ' '], .ref 1, .lit [' ', 'w', 'e', 'e', 'k']]),
    (.seqs [.grp 1 (.number), .lit [' '], .cls false [.rng 'Ж' 'Ж', .rng 'ж' 'ж'], .cls false [.rng 'И' 'И', .rng 'и' 'и'], .cls false [.rng 'Л' 'Л', .rng 'л' 'л'], .cls false [.rng 'И' 'И', .rng 'и' 'и'], .cls false [.rng 'И' 'И', .rng 'и' 'и'], .cls false [.rng 'Н' 'Н', .rng 'н' 'н'], .lit [' '], .cls false [.rng 'Д' 'Д', .rng 'д' 'д', .rng 'ᲁ' 'ᲁ'], .cls false [.rng 'А' 'А', .rng 'а' 'а'], .cls false [.rng 'Р' 'Р', .rng 'р' 'р'], .cls false [.rng 'А' 'А', .rng 'а' 'а'], .cls false [.rng 'А' 'А', .rng 'а' 'а']], [.lit ['i', 'n', ' '], .ref 1, .lit [' ', 'y', 'e', 'a', 'r']]),
    (.seqs [.grp 1 (.number), .lit [' '], .cls false [.rng 'М' 'М', .rng 'м' 'м'], .cls false [.rng 'И' 'И', .rng 'и' 'и'], .cls false [.rng 'Н' 'Н', .rng 'н' 'н'], .cls false [.rng 'У' 'У', .rng 'у' 'у'], .cls false [.rng 'Т' 'Т', .rng 'т' 'т', .rng 'ᲄ' 'ᲄ', .rng 'ᲅ' 'ᲅ'], .cls false [.rng 'Ы' 'Ы', .rng 'ы' 'ы'], .cls false [.rng 'Н' 'Н', .rng 'н' 'н'], .lit [' '], .cls false [.rng 'Ө' 'Ө', .rng 'ө' 'ө'], .cls false [.rng 'М' 'М', .rng 'м' 'м'], .cls false [.rng 'Н' 'Н', .rng 'н' 'н'], .cls false [.rng 'Ө' 'Ө', .rng 'ө' 'ө']], [.ref 1, .lit [' ', 'm', 'i', 'n', 'u', 't', 'e', ' ', 'a', 'g', 'o']]),
    (.seqs [.grp 1 (.number), .lit [' '], .cls false [.rng 'Ц' 'Ц', .rng 'ц' 'ц'], .cls false [.rng 'А' 'А', .rng 'а' 'а'], .cls false [.rng 'Г' 'Г', .rng 'г' 'г'], .cls false [.rng 'И' 'И', .rng 'и' 'и'], .cls false [.rng 'И' 'И', .rng 'и' 'и'], .cls false [.rng 'Н' 'Н', .rng 'н' 'н'], .lit [' '], .cls false [.rng 'Д' 'Д', .rng 'д' 'д', .rng 'ᲁ' 'ᲁ'], .cls false [.rng 'А' 'А', .rng 'а' 'а'], .cls false [.rng 'Р' 'Р', .rng 'р' 'р'], .cls false [.rng 'А' 'А', .rng 'а' 'а'], .cls false [.rng 'А' 'А', .rng 'а' 'а']], [.lit ['i', 'n', ' '], .ref 1, .lit [' ', 'h', 'o', 'u', 'r']]),
    (.seqs [.grp 1 (.number), .lit [' '], .cls false [.rng 'Ө' 'Ө', .rng 'ө' 'ө'], .cls false [.rng 'Д' 'Д', .rng 'д' 'д', .rng 'ᲁ' 'ᲁ'], .cls false [.rng 'Р' 'Р', .rng 'р' 'р'], .cls false [.rng 'И' 'И', .rng 'и' 'и'], .cls false [.rng 'И' 'И', .rng 'и' 'и'], .cls false [.rng 'Н' 'Н', .rng 'н' 'н'], .lit [' '], .cls false [.rng 'Д' 'Д', .rng 'д' 'д', .rng 'ᲁ' 'ᲁ'], .cls false [.rng 'А' 'А', .rng 'а' 'а'], .cls false [.rng 'Р' 'Р', .rng 'р' 'р'], .cls false [.rng 'А' 'А', .rng 'а' 'а'], .cls false [.rng 'А' 'А', .rng 'а' 'а']], [.lit ['i', 'n', ' '], .ref 1, .lit [' ', 'd', 'a', 'y']]),
    (.seqs [.grp 1 (.number), .lit [' ', '7'], .cls false [.rng 'Х' 'Х', .rng 'х' 'х'], .lit ['-'], .cls false [.rng 'И' 'И', .rng 'и' 'и'], .cls false [.rng 'И' 'И', .rng 'и' 'и'], .cls false [.rng 'Н' 'Н', .rng 'н' 'н'], .lit [' '], .cls false [.rng 'Ө' 'Ө', .rng 'ө' 'ө'], .cls false [.rng 'М' 'М', .rng 'м' 'м'], .cls false [.rng 'Н' 'Н', .rng 'н' 'н'], .cls false [.rng 'Ө' 'Ө', .rng 'ө' 'ө']], [.ref 1, .lit [' ', 'w', 'e', 'e', 'k', ' ', 'a', 'g', 'o']]),
    (.seqs [.grp 1 (.number), .lit [' '], .cls false [.rng 'Ж' 'Ж', .rng 'ж' 'ж'], .cls false [.rng 'И' 'И', .rng 'и' 'и'], .cls false [.rng 'Л' 'Л', .rng 'л' 'л'], .cls false [.rng 'И' 'И', .rng 'и' 'и'], .cls false [.rng 'И' 'И', .rng 'и' 'и'], .cls false [.rng 'Н' 'Н', .rng 'н' 'н'], .lit [' '], .cls false [.rng 'Ө' 'Ө', .rng 'ө' 'ө'], .cls false [.rng 'М' 'М', .rng 'м' 'м'], .cls false [.rng 'Н' 'Н', .rng 'н' 'н'], .cls false [.rng 'Ө' 'Ө', .rng 'ө' 'ө']], [.ref 1, .lit [' ', 'y', 'e', 'a', 'r', ' ', 'a', 'g', 'o']]),
    (.seqs [.grp 1 (.number), .lit [' '], .cls false [.rng 'С' 'С', .rng 'с' 'с', .rng 'ᲃ' 'ᲃ'], .cls false [.rng 'А' 'А', .rng 'а' 'а'], .cls false [.rng 'Р' 'Р', .rng 'р' 'р'], .cls false [.rng 'Ы' 'Ы', .rng 'ы' 'ы'], .cls false [.rng 'Н' 'Н', .rng 'н' 'н'], .lit [' '], .cls false [.rng 'Д' 'Д', .rng 'д' 'д', .rng 'ᲁ' 'ᲁ'], .cls false [.rng 'А' 'А', .rng 'а' 'а'], .cls false [.rng 'Р' 'Р', .rng 'р' 'р'], .cls false [.rng 'А' 'А', .rng 'а' 'а'], .cls false [.rng 'А' 'А', .rng 'а' 'а']], [.lit ['i', 'n', ' '], .ref 1, .lit [' ', 'm', 'o', 'n', 't', 'h']]),
    (.seqs [.grp 1 (.number), .lit [' '], .cls false [.rng 'Ц' 'Ц', .rng 'ц' 'ц'], .cls false [.rng 'А' 'А', .rng 'а' 'а'], .cls false [.rng 'Г' 'Г', .rng 'г' 'г'], .cls false [.rng 'И' 'И', .rng 'и' 'и'], .cls false [.rng 'И' 'И', .rng 'и' 'и'], .cls false [.rng 'Н' 'Н', .rng 'н' 'н'], .lit [' '], .cls false [.rng 'Ө' 'Ө', .rng 'ө' 'ө'], .cls false [.rng 'М' 'М', .rng 'м' 'м'], .cls false [.rng 'Н' 'Н', .rng 'н' 'н'], .cls false [.rng 'Ө' 'Ө', .rng 'ө' 'ө']], [.ref 1, .lit [' ', 'h', 'o', 'u', 'r', ' ', 'a', 'g', 'o']]),
    (.seqs [.grp 1 (.number), .lit [' '], .cls false [.rng 'Ө' 'Ө', .rng 'ө' 'ө'], .cls false [.rng 'Д' 'Д', .rng 'д' 'д', .rng 'ᲁ' 'ᲁ'], .cls false [.rng 'Р' 'Р', .rng 'р' 'р'], .cls false [.rng 'И' 'И', .rng 'и' 'и'], .cls false [.rng 'И' 'И', .rng 'и' 'и'], .cls false [.rng 'Н' 'Н', .rng 'н' 'н'], .lit [' '], .cls false [.rng 'Ө' 'Ө', .rng 'ө' 'ө'], .cls false [.rng 'М' 'М', .rng 'м' 'м'], .cls false [.rng 'Н' 'Н', .rng 'н' 'н'], .cls false [.rng 'Ө' 'Ө', .rng 'ө' 'ө']], [.ref 1, .lit [' ', 'd', 'a', 'y', ' ', 'a', 'g', 'o']]),
    (.seqs [.grp 1 (.number), .lit [' '], .cls false [.rng 'С' 'С', .rng 'с' 'с', .rng 'ᲃ' 'ᲃ'], .cls false [.rng 'А' 'А', .rng 'а' 'а'], .cls false [.rng 'Р' 'Р', .rng 'р' 'р'], .cls false [.rng 'Ы' 'Ы', .rng 'ы' 'ы'], .cls false [.rng 'Н' 'Н', .rng 'н' 'н'], .lit [' '], .cls false [.rng 'Ө' 'Ө', .rng 'ө' 'ө'], .cls false [.rng 'М' 'М', .rng 'м' 'м'], .cls false [.rng 'Н' 'Н', .rng 'н' 'н'], .cls false [.rng 'Ө' 'Ө', .rng 'ө' 'ө']], [.ref 1, .lit [' ', 'm', 'o', 'n', 't', 'h', ' ', 'a', 'g', 'o']]),
    (.seqs [.grp 1 (.number), .lit [' '], .cls false [.rng 'М' 'М', .rng 'м' 'м'], .cls false [.rng 'И' 'И', .rng 'и' 'и'], .cls false [.rng 'Н' 'Н', .rng 'н' 'н'], .lit [' '], .cls false [.rng 'Д' 'Д', .rng 'д' 'д', .rng 'ᲁ' 'ᲁ'], .cls false [.rng 'А' 'А', .rng 'а' 'а'], .cls false [.rng 'Р' 'Р', .rng 'р' 'р'], .cls false [.rng 'А' 'А', .rng 'а' 'а'], .cls false [.rng 'А' 'А', .rng 'а' 'а']], [.lit ['i', 'n', ' '], .ref 1, .lit [' ', 'm', 'i', 'n', 'u', 't', 'e']]),
    (.seqs [.grp 1 (.number), .lit [' '], .cls false [.rng 'С' 'С', .rng 'с' 'с', .rng 'ᲃ' 'ᲃ'], .cls false [.rng 'Е' 'Е', .rng 'е' 'е'], .cls false [.rng 'К' 'К', .rng 'к' 'к'], .lit [' '], .cls false [.rng 'Д' 'Д', .rng 'д' 'д', .rng 'ᲁ' 'ᲁ'], .cls false [.rng 'А' 'А', .rng 'а' 'а'], .cls false [.rng 'Р' 'Р', .rng 'р' 'р'], .cls false [.rng 'А' 'А', .rng 'а' 'а'], .cls false [.rng 'А' 'А', .rng 'а' 'а']], [.lit ['i', 'n', ' '], .ref 1, .lit [' ', 's', 'e', 'c', 'o', 'n', 'd']]),
    (.seqs [.grp 1 (.number), .lit [' '], .cls false [.rng 'М' 'М', .rng 'м' 'м'], .cls false [.rng 'И' 'И', .rng 'и' 'и'], .cls false [.rng 'Н' 'Н', .rng 'н' 'н'], .lit [' '], .cls false [.rng 'Ө' 'Ө', .rng 'ө' 'ө'], .cls false [.rng 'М' 'М', .rng 'м' 'м'], .cls false [.rng 'Н' 'Н', .rng 'н' 'н'], .cls false [.rng 'Ө' 'Ө', .rng 'ө' 'ө']], [.ref 1, .lit [' ', 'm', 'i', 'n', 'u', 't', 'e', ' ', 'a', 'g', 'o']]),
    (.seqs [.grp 1 (.number), .lit [' '], .cls false [.rng 'С' 'С', .rng 'с' 'с', .rng 'ᲃ' 'ᲃ'], .cls false [.rng 'Е' 'Е', .rng 'е' 'е'], .cls false [.rng 'К' 'К', .rng 'к' 'к'], .lit [' '], .cls false [.rng 'Ө' 'Ө', .rng 'ө' 'ө'], .cls false [.rng 'М' 'М', .rng 'м' 'м'], .cls false [.rng 'Н' 'Н', .rng 'н' 'н'], .cls false [.rng 'Ө' 'Ө', .rng 'ө' 'ө']], [.ref 1, .lit [' ', 's', 'e', 'c', 'o', 'n', 'd', ' ', 'a', 'g', 'o']]),
    (.seqs [.grp 1 (.number), .lit [' '], .cls false [.rng 'Ц' 'Ц', .rng 'ц' 'ц'], .lit [' '], .cls false [.rng 'Д' 'Д', .rng 'д' 'д', .rng 'ᲁ' 'ᲁ'], .cls false [.rng 'А' 'А', .rng 'а' 'а'], .cls false [.rng 'Р' 'Р', .rng 'р' 'р'], .cls false [.rng 'А' 'А', .rng 'а' 'а'], .cls false [.rng 'А' 'А', .rng 'а' 'а']], [.lit ['i', 'n', ' '], .ref 1, .lit [' ', 'h', 'o', 'u', 'r']]),
    (.seqs [.grp 1 (.number), .lit [' '], .cls false [.rng 'Ц' 'Ц', .rng 'ц' 'ц'], .lit [' '], .cls false [.rng 'Ө' 'Ө', .rng 'ө' 'ө'], .cls false [.rng 'М' 'М', .rng 'м' 'м'], .cls false [.rng 'Н' 'Н', .rng 'н' 'н'], .cls false [.rng 'Ө' 'Ө', .rng 'ө' 'ө']], [.ref 1, .lit [' ', 'h', 'o', 'u', 'r', ' ', 'a', 'g', 'o']]),
    (.seqs [.grp 1 (.number), .lit [' '], .cls false [.rng 'Ө' 'Ө', .rng 'ө' 'ө'], .cls false [.rng 'Д' 'Д', .rng 'д' 'д', .rng 'ᲁ' 'ᲁ'], .cls false [.rng 'Ө' 'Ө', .rng 'ө' 'ө'], .cls false [.rng 'Р' 'Р', .rng 'р' 'р'], .cls false [.rng 'Т' 'Т', .rng 'т' 'т', .rng 'ᲄ' 'ᲄ', .rng 'ᲅ' 'ᲅ']], [.lit ['i', 'n', ' '], .ref 1, .lit [' ', 'd', 'a', 'y']])],
  rxCombined := some (.seqs [.grp 1 (.alts [.bos, .cls true [.letter, .mark, .digit], .lit ['_']]), .grp 2 (.alts [.seqs [.number, .lit [' '], .cls false [.rng 'С' 'С', .rng 'с' 'с', .rng 'ᲃ' 'ᲃ'], .cls false [.rng 'Е' 'Е', .rng 'е' 'е'], .cls false [.rng 'К' 'К', .rng 'к' 'к'], .cls false [.rng 'У' 'У', .rng 'у' 'у'], .cls false [.rng 'Н' 'Н', .rng 'н' 'н'], .cls false [.rng 'Д' 'Д', .rng 'д' 'д', .rng 'ᲁ' 'ᲁ'], .cls false [.rng 'Ы' 'Ы', .rng 'ы' 'ы'], .cls false [.rng 'Н' 'Н', .rng 'н' 'н'], .lit [' '], .cls false [.rng 'Д' 'Д', .rng 'д' 'д', .rng 'ᲁ' 'ᲁ'], .cls false [.rng 'А' 'А', .rng 'а' 'а'], .cls false [.rng 'Р' 'Р', .rng 'р' 'р'], .cls false [.rng 'А' 'А', .rng 'а' 'а'], .cls false [.rng 'А' 'А', .rng 'а' 'а']], .seqs [.number, .lit [' '], .cls false [.rng 'М' 'М', .rng 'м' 'м'], .cls false [.rng 'И' 'И', .rng 'и' 'и'], .cls false [.rng 'Н' 'Н', .rng 'н' 'н'], .cls false [.rng 'У' 'У', .rng 'у' 'у'], .cls false [.rng 'Т' 'Т', .rng 'т' 'т', .rng 'ᲄ' 'ᲄ', .rng 'ᲅ' 'ᲅ'], .cls false [.rng 'Ы' 'Ы', .rng 'ы' 'ы'], .cls false [.rng 'Н' 'Н', .rng 'н' 'н'], .lit [' '], .cls false [.rng 'Д' 'Д', .rng 'д' 'д', .rng 'ᲁ' 'ᲁ'], .cls false [.rng 'А' 'А', .rng 'а' 'а'], .cls false [.rng 'Р' 'Р', .rng 'р' 'р'], .cls false [.rng 'А' 'А', .rng 'а' 'а'], .cls false [.rng 'А' 'А', .rng 'а' 'а']], .seqs [.number, .lit [' '], .cls false [.rng 'С' 'С', .rng 'с' 'с', .rng 'ᲃ' 'ᲃ'], .cls false [.rng 'Е' 'Е', .rng 'е' 'е'], .cls false [.rng 'К' 'К', .rng 'к' 'к'], .cls false [.rng 'У' 'У', .rng 'у' 'у'], .cls false [.rng 'Н' 'Н', .rng 'н' 'н'], .cls false [.rng 'Д' 'Д', .rng 'д' 'д', .rng 'ᲁ' 'ᲁ'], .cls false [.rng 'Ы' 'Ы', .rng 'ы' 'ы'], .cls false [.rng 'Н' 'Н', .rng 'н' 'н'], .lit [' '], .cls false [.rng 'Ө' 'Ө', .rng 'ө' 'ө'], .cls false [.rng 'М' 'М', .rng 'м' 'м'], .cls false [.rng 'Н' 'Н', .rng 'н' 'н'], .cls false [.rng 'Ө' 'Ө', .rng 'ө' 'ө']], .seqs [.number, .lit [' ', '7'], .cls false [.rng 'Х' 'Х', .rng 'х' 'х'], .lit ['-'], .cls false [.rng 'И' 'И', .rng 'и' 'и'], .cls false [.rng 'И' 'И', .rng 'и' 'и'], .cls false [.rng 'Н' 'Н', .rng 'н' 'н'], .lit [' '], .cls false [.rng 'Д' 'Д', .rng 'д' 'д', .rng 'ᲁ' 'ᲁ'], .cls false [.rng 'А' 'А', .rng 'а' 'а'], .cls false [.rng 'Р' 'Р', .rng 'р' 'р'], .cls false [.rng 'А' 'А', .rng 'а' 'а'], .cls false [.rng 'А' 'А', .rng 'а' 'а']], .seqs [.number, .lit [' '], .cls false [.rng 'Ж' 'Ж', .rng 'ж' 'ж'], .cls false [.rng 'И' 'И', .rng 'и' 'и'], .cls false [.rng 'Л' 'Л', .rng 'л' 'л'], .cls false [.rng 'И' 'И', .rng 'и' 'и'], .cls false [.rng 'И' 'И', .rng 'и' 'и'], .cls false [.rng 'Н' 'Н', .rng 'н' 'н'], .lit [' '], .cls false [.rng 'Д' 'Д', .rng 'д' 'д', .rng 'ᲁ' 'ᲁ'], .cls false [.rng 'А' 'А', .rng 'а' 'а'], .cls false [.rng 'Р' 'Р', .rng 'р' 'р'], .cls false [.rng 'А' 'А', .rng 'а' 'а'], .cls false [.rng 'А' 'А', .rng 'а' 'а']], .seqs [.number, .lit [' '], .cls false [.rng 'М' 'М', .rng 'м' 'м'], .cls false [.rng 'И' 'И', .rng 'и' 'и'], .cls false [.rng 'Н' 'Н', .rng 'н' 'н'], .cls false [.rng 'У' 'У', .rng 'у' 'у'], .cls false [.rng 'Т' 'Т', .rng 'т' 'т', .rng 'ᲄ' 'ᲄ', .rng 'ᲅ' 'ᲅ'], .cls false [.rng 'Ы' 'Ы', .rng 'ы' 'ы'], .cls false [.rng 'Н' 'Н', .rng 'н' 'н'], .lit [' '], .cls false [.rng 'Ө' 'Ө', .rng 'ө' 'ө'], .cls false [.rng 'М' 'М', .rng 'м' 'м'], .cls false [.rng 'Н' 'Н', .rng 'н' 'н'], .cls false [.rng 'Ө' 'Ө', .rng 'ө' 'ө']], .seqs [.number, .lit [' '], .cls false [.rng 'Ц' 'Ц', .rng 'ц' 'ц'], .cls false [.rng 'А' 'А', .rng 'а' 'а'], .cls false [.rng 'Г' 'Г', .rng 'г' 'г'], .cls false [.rng 'И' 'И', .rng 'и' 'и'], .cls false [.rng 'И' 'И', .rng 'и' 'и'], .cls false [.rng 'Н' 'Н', .rng 'н' 'н'], .lit [' '], .cls false [.rng 'Д' 'Д', .rng 'д' 'д', .rng 'ᲁ' 'ᲁ'], .cls false [.rng 'А' 'А', .rng 'а' 'а'], .cls false [.rng 'Р' 'Р', .rng 'р' 'р'], .cls false [.rng 'А' 'А', .rng 'а' 'а'], .cls false [.rng 'А' 'А', .rng 'а' 'а']], .seqs [.number, .lit [' '], .cls false [.rng 'Ө' 'Ө', .rng 'ө' 'ө'], .cls false [.rng 'Д' 'Д', .rng 'д' 'д', .rng 'ᲁ' 'ᲁ'], .cls false [.rng 'Р' 'Р', .rng 'р' 'р'], .cls false [.rng 'И' 'И', .rng 'и' 'и'], .cls false [.rng 'И' 'И', .rng 'и' 'и'], .cls false [.rng 'Н' 'Н', .rng 'н' 'н'], .lit [' '], .cls false [.rng 'Д' 'Д', .rng 'д' 'д', .rng 'ᲁ' 'ᲁ'], .cls false [.rng 'А' 'А', .rng 'а' 'а'], .cls false [.rng 'Р' 'Р', .rng 'р' 'р'], .cls false [.rng 'А' 'А', .rng 'а' 'а'], .cls false [.rng 'А' 'А', .rng 'а' 'а']], .seqs [.number, .lit [' ', '7'], .cls false [.rng 'Х' 'Х', .rng 'х' 'х'], .lit ['-'], .cls false [.rng 'И' 'И', .rng 'и' 'и'], .cls false [.rng 'И' 'И', .rng 'и' 'и'], .cls false [.rng 'Н' 'Н', .rng 'н' 'н'], .lit [' '], .cls false [.rng 'Ө' 'Ө', .rng 'ө' 'ө'], .cls false [.rng 'М' 'М', .rng 'м' 'м'], .cls false [.rng 'Н' 'Н', .rng 'н' 'н'], .cls false [.rng 'Ө' 'Ө', .rng 'ө' 'ө']], .seqs [.number, .lit [' '], .cls false [.rng 'Ж' 'Ж', .rng 'ж' 'ж'], .cls false [.rng 'И' 'И', .rng 'и' 'и'], .cls false [.rng 'Л' 'Л', .rng 'л' 'л'], .cls false [.rng 'И' 'И', .rng 'и' 'и'], .cls false [.rng 'И' 'И', .rng 'и' 'и'], .cls false [.rng 'Н' 'Н', .rng 'н' 'н'], .lit [' '], .cls false [.rng 'Ө' 'Ө', .rng 'ө' 'ө'], .cls false [.rng 'М' 'М', .rng 'м' 'м'], .cls false [.rng 'Н' 'Н', .rng 'н' 'н'], .cls false [.rng 'Ө' 'Ө', .rng 'ө' 'ө']], .seqs [.number, .lit [' '], .cls false [.rng 'С' 'С', .rng 'с' 'с', .rng 'ᲃ' 'ᲃ'], .cls false [.rng 'А' 'А', .rng 'а' 'а'], .cls false [.rng 'Р' 'Р', .rng 'р' 'р'], .cls false [.rng 'Ы' 'Ы', .rng 'ы' 'ы'], .cls false [.rng 'Н' 'Н', .rng 'н' 'н'], .lit [' '], .cls false [.rng 'Д' 'Д', .rng 'д' 'д', .rng 'ᲁ' 'ᲁ'], .cls false [.rng 'А' 'А', .rng 'а' 'а'], .cls false [.rng 'Р' 'Р', .rng 'р' 'р'], .cls false [.rng 'А' 'А', .rng 'а' 'а'], .cls false [.rng 'А' 'А', .rng 'а' 'а']], .seqs [.number, .lit [' '], .cls false [.rng 'Ц' 'Ц', .rng 'ц' 'ц'], .cls false [.rng 'А' 'А', .rng 'а' 'а'], .cls false [.rng 'Г' 'Г', .rng 'г' 'г'], .cls false [.rng 'И' 'И', .rng 'и' 'и'], .cls false [.rng 'И' 'И', .rng 'и' 'и'], .cls false [.rng 'Н' 'Н', .rng 'н' 'н'], .lit [' '], .cls false [.rng 'Ө' 'Ө', .rng 'ө' 'ө'], .cls false [.rng 'М' 'М', .rng 'м' 'м'], .cls false [.rng 'Н' 'Н', .rng 'н' 'н'], .cls false [.rng 'Ө' 'Ө', .rng 'ө' 'ө']], .seqs [.number, .lit [' '], .cls false [.rng 'Ө' 'Ө', .rng 'ө' 'ө'], .cls false [.rng 'Д' 'Д', .rng 'д' 'д', .rng 'ᲁ' 'ᲁ'], .cls false [.rng 'Р' 'Р', .rng 'р' 'р'], .cls false [.rng 'И' 'И', .rng 'и' 'и'], .cls false [.rng 'И' 'И', .rng 'и' 'и'], .cls false [.rng 'Н' 'Н', .rng 'н' 'н'], .lit [' '], .cls false [.rng 'Ө' 'Ө', .rng 'ө' 'ө'], .cls false [.rng 'М' 'М', .rng 'м' 'м'], .cls false [.rng 'Н' 'Н', .rng 'н' 'н'], .cls false [.rng 'Ө' 'Ө', .rng 'ө' 'ө']], .seqs [.number, .lit [' '], .cls false [.rng 'С' 'С', .rng 'с' 'с', .rng 'ᲃ' 'ᲃ'], .cls false [.rng 'А' 'А', .rng 'а' 'а'], .cls false [.rng 'Р' 'Р', .rng 'р' 'р'], .cls false [.rng 'Ы' 'Ы', .rng 'ы' 'ы'], .cls false [.rng 'Н' 'Н', .rng 'н' 'н'], .lit [' '], .cls false [.rng 'Ө' 'Ө', .rng 'ө' 'ө'], .cls false [.rng 'М' 'М', .rng 'м' 'м'], .cls false [.rng 'Н' 'Н', .rng 'н' 'н'], .cls false [.rng 'Ө' 'Ө', .rng 'ө' 'ө']], .seqs [.number, .lit [' '], .cls false [.rng 'М' 'М', .rng 'м' 'м'], .cls false [.rng 'И' 'И', .rng 'и' 'и'], .cls false [.rng 'Н' 'Н', .rng 'н' 'н'], .lit [' '], .cls false [.rng 'Д' 'Д', .rng 'д' 'д', .rng 'ᲁ' 'ᲁ'], .cls false [.rng 'А' 'А', .rng 'а' 'а'], .cls false [.rng 'Р' 'Р', .rng 'р' 'р'], .cls false [.rng 'А' 'А', .rng 'а' 'а'], .cls false [.rng 'А' 'А', .rng 'а' 'а']], .seqs [.number, .lit [' '], .cls false [.rng 'С' 'С', .rng 'с' 'с', .rng 'ᲃ' 'ᲃ'], .cls false [.rng 'Е' 'Е', .rng 'е' 'е'], .cls false [.rng 'К' 'К', .rng 'к' 'к'], .lit [' '], .cls false [.rng 'Д' 'Д', .rng 'д' 'д', .rng 'ᲁ' 'ᲁ'], .cls false [.rng 'А' 'А', .rng 'а' 'а'], .cls false [.rng 'Р' 'Р', .rng 'р' 'р'], .cls false [.rng 'А' 'А', .rng 'а' 'а'], .cls false [.rng 'А' 'А', .rng 'а' 'а']], .seqs [.number, .lit [' '], .cls false [.rng 'М' 'М', .rng 'м' 'м'], .cls false [.rng 'И' 'И', .rng 'и' 'и'], .cls false [.rng 'Н' 'Н', .rng 'н' 'н'], .lit [' '], .cls false [.rng 'Ө' 'Ө', .rng 'ө' 'ө'], .cls false [.rng 'М' 'М', .rng 'м' 'м'], .cls false [.rng 'Н' 'Н', .rng 'н' 'н'], .cls false [.rng 'Ө' 'Ө', .rng 'ө' 'ө']], .seqs [.number, .lit [' '], .cls false [.rng 'С' 'С', .rng 'с' 'с', .rng 'ᲃ' 'ᲃ'], .cls false [.rng 'Е' 'Е', .rng 'е' 'е'], .cls false [.rng 'К' 'К', .rng 'к' 'к'], .lit [' '], .cls false [.rng 'Ө' 'Ө', .rng 'ө' 'ө'], .cls false [.rng 'М' 'М', .rng 'м' 'м'], .cls false [.rng 'Н' 'Н', .rng 'н' 'н'], .cls false [.rng 'Ө' 'Ө', .rng 'ө' 'ө']], .seqs [.number, .lit [' '], .cls false [.rng 'Ц' 'Ц', .rng 'ц' 'ц'], .lit [' '], .cls false [.rng 'Д' 'Д', .rng 'д' 'д', .rng 'ᲁ' 'ᲁ'], .cls false [.rng 'А' 'А', .rng 'а' 'а'], .cls false [.rng 'Р' 'Р', .rng 'р' 'р'], .cls false [.rng 'А' 'А', .rng 'а' 'а'], .cls false [.rng 'А' 'А', .rng 'а' 'а']], .seqs [.number, .lit [' '], .cls false [.rng 'Ц' 'Ц', .rng 'ц' 'ц'], .lit [' '], .cls false [.rng 'Ө' 'Ө', .rng 'ө' 'ө'], .cls false [.rng 'М' 'М', .rng 'м' 'м'], .cls false [.rng 'Н' 'Н', .rng 'н' 'н'], .cls false [.rng 'Ө' 'Ө', .rng 'ө' 'ө']], .seqs [.number, .lit [' '], .cls false [.rng 'Ө' 'Ө', .rng 'ө' 'ө'], .cls false [.rng 'Д' 'Д', .rng 'д' 'д', .rng 'ᲁ' 'ᲁ'], .cls false [.rng 'Ө' 'Ө', .rng 'ө' 'ө'], .cls false [.rng 'Р' 'Р', .rng 'р' 'р'], .cls false [.rng 'Т' 'Т', .rng 'т' 'т', .rng 'ᲄ' 'ᲄ', .rng 'ᲅ' 'ᲅ']]]), .grp 3 (.alts [.eos, .cls true [.letter, .mark, .digit], .lit ['_']])], 3),
  rxExact := some (.seqs [.bos, .grp 1 (.alts [.seqs [.number, .lit [' '], .cls false [.rng 'С' 'С', .rng 'с' 'с', .rng 'ᲃ' 'ᲃ'], .cls false [.rng 'Е' 'Е', .rng 'е' 'е'], .cls false [.rng 'К' 'К', .rng 'к' 'к'], .cls false [.rng 'У' 'У', .rng 'у' 'у'], .cls false [.rng 'Н' 'Н', .rng 'н' 'н'], .cls false [.rng 'Д' 'Д', .rng 'д' 'д', .rng 'ᲁ' 'ᲁ'], .cls false [.rng 'Ы' 'Ы', .rng 'ы' 'ы'], .cls false [.rng 'Н' 'Н', .rng 'н' 'н'], .lit [' '], .cls false [.rng 'Д' 'Д', .rng 'д' 'д', .rng 'ᲁ' 'ᲁ'], .cls false [.rng 'А' 'А', .rng 'а' 'а'], .cls false [.rng 'Р' 'Р', .rng 'р' 'р'], .cls false [.rng 'А' 'А', .rng 'а' 'а'], .cls false [.rng 'А' 'А', .rng 'а' 'а']], .seqs [.number, .lit [' '], .cls false [.rng 'М' 'М', .rng 'м' 'м'], .cls false [.rng 'И' 'И', .rng 'и' 'и'], .cls false [.rng 'Н' 'Н', .rng 'н' 'н'], .cls false [.rng 'У' 'У', .rng 'у' 'у'], .cls false [.rng 'Т' 'Т', .rng 'т' 'т', .rng 'ᲄ' 'ᲄ', .rng 'ᲅ' 'ᲅ'], .cls false [.rng 'Ы' 'Ы', .rng 'ы' 'ы'], .cls false [.rng 'Н' 'Н', .rng 'н' 'н'], .lit [' '], .cls false [.rng 'Д' 'Д', .rng 'д' 'д', .rng 'ᲁ' 'ᲁ'], .cls false [.rng 'А' 'А', .rng 'а' 'а'], .cls false [.rng 'Р' 'Р', .rng 'р' 'р'], .cls false [.rng 'А' 'А', .rng 'а' 'а'], .cls false [.rng 'А' 'А', .rng 'а' 'а']], .seqs [.number, .lit [' '], .cls false [.rng 'С' 'С', .rng 'с' 'с', .rng 'ᲃ' 'ᲃ'], .cls false [.rng 'Е' 'Е', .rng 'е' 'е'], .cls false [.rng 'К' 'К', .rng 'к' 'к'], .cls false [.rng 'У' 'У', .rng 'у' 'у'], .cls false [.rng 'Н' 'Н', .rng 'н' 'н'], .cls false [.rng 'Д' 'Д', .rng 'д' 'д', .rng 'ᲁ' 'ᲁ'], .cls false [.rng 'Ы' 'Ы', .rng 'ы' 'ы'], .cls false [.rng 'Н' 'Н', .rng 'н' 'н'], .lit [' '], .cls false [.rng 'Ө' 'Ө', .rng 'ө' 'ө'], .cls false [.rng 'М' 'М', .rng 'м' 'м'], .cls false [.rng 'Н' 'Н', .rng 'н' 'н'], .cls false [.rng 'Ө' 'Ө', .rng 'ө' 'ө']], .seqs [.number, .lit [' ', '7'], .cls false [.rng 'Х' 'Х', .rng 'х' 'х'], .lit ['-'], .cls false [.rng 'И' 'И', .rng 'и' 'и'], .cls false [.rng 'И' 'И', .rng 'и' 'и'], .cls false [.rng 'Н' 'Н', .rng 'н' 'н'], .lit [' '], .cls false [.rng 'Д' 'Д', .rng 'д' 'д', .rng 'ᲁ' 'ᲁ'], .cls false [.rng 'А' 'А', .rng 'а' 'а'], .cls false [.rng 'Р' 'Р', .rng 'р' 'р'], .cls false [.rng 'А' 'А', .rng 'а' 'а'], .cls false [.rng 'А' 'А', .rng 'а' 'а']], .seqs [.number, .lit [' '], .cls false [.rng 'Ж' 'Ж', .rng 'ж' 'ж'], .cls false [.rng 'И' 'И', .rng 'и' 'и'], .cls false [.rng 'Л' 'Л', .rng 'л' 'л'], .cls false [.rng 'И' 'И', .rng 'и' 'и'], .cls false [.rng 'И' 'И', .rng 'и' 'и'], .cls false [.rng 'Н' 'Н', .rng 'н' 'н'], .lit [' '], .cls false [.rng 'Д' 'Д', .rng 'д' 'д', .rng 'ᲁ' 'ᲁ'], .cls false [.rng 'А' 'А', .rng 'а' 'а'], .cls false [.rng 'Р' 'Р', .rng 'р' 'р'], .cls false [.rng 'А' 'А', .rng 'а' 'а'], .cls false [.rng 'А' 'А', .rng 'а' 'а']], .seqs [.number, .lit [' '], .cls false [.rng 'М' 'М', .rng 'м' 'м'], .cls false [.rng 'И' 'И', .rng 'и' 'и'], .cls false [.rng 'Н' 'Н', .rng 'н' 'н'], .cls false [.rng 'У' 'У', .rng 'у' 'у'], .cls false [.rng 'Т' 'Т', .rng 'т' 'т', .rng 'ᲄ' 'ᲄ', .rng 'ᲅ' 'ᲅ'], .cls false [.rng 'Ы' 'Ы', .rng 'ы' 'ы'], .cls false [.rng 'Н' 'Н', .rng 'н' 'н'], .lit [' '], .cls false [.rng 'Ө' 'Ө', .rng 'ө' 'ө'], .cls false [.rng 'М' 'М', .rng 'м' 'м'], .cls false [.rng 'Н' 'Н', .rng 'н' 'н'], .cls false [.rng 'Ө' 'Ө', .rng 'ө' 'ө']], .seqs [.number, .lit [' '], .cls false [.rng 'Ц' 'Ц', .rng 'ц' 'ц'], .cls false [.rng 'А' 'А', .rng 'а' 'а'], .cls false [.rng 'Г' 'Г', .rng 'г' 'г'], .cls false [.rng 'И' 'И', .rng 'и' 'и'], .cls false [.rng 'И' 'И', .rng 'и' 'и'], .cls false [.rng 'Н' 'Н', .rng 'н' 'н'], .lit [' '], .cls false [.rng 'Д' 'Д', .rng 'д' 'д', .rng 'ᲁ' 'ᲁ'], .cls false [.rng 'А' 'А', .rng 'а' 'а'], .cls false [.rng 'Р' 'Р', .rng 'р' 'р'], .cls false [.rng 'А' 'А', .rng 'а' 'а'], .cls false [.rng 'А' 'А', .rng 'а' 'а']], .seqs [.number, .lit [' '], .cls false [.rng 'Ө' 'Ө', .rng 'ө' 'ө'], .cls false [.rng 'Д' 'Д', .rng 'д' 'д', .rng 'ᲁ' 'ᲁ'], .cls false [.rng 'Р' 'Р', .rng 'р' 'р'], .cls false [.rng 'И' 'И', .rng 'и' 'и'], .cls false [.rng 'И' 'И', .rng 'и' 'и'], .cls false [.rng 'Н' 'Н', .rng 'н' 'н'], .lit [' '], .cls false [.rng 'Д' 'Д', .rng 'д' 'д', .rng 'ᲁ' 'ᲁ'], .cls false [.rng 'А' 'А', .rng 'а' 'а'], .cls false [.rng 'Р' 'Р', .rng 'р' 'р'], .cls false [.rng 'А' 'А', .rng 'а' 'а'], .cls false [.rng 'А' 'А', .rng 'а' 'а']], .seqs [.number, .lit [' ', '7'], .cls false [.rng 'Х' 'Х', .rng 'х' 'х'], .lit ['-'], .cls false [.rng 'И' 'И', .rng 'и' 'и'], .cls false [.rng 'И' 'И', .rng 'и' 'и'], .cls false [.rng 'Н' 'Н', .rng 'н' 'н'], .lit [' '], .cls false [.rng 'Ө' 'Ө', .rng 'ө' 'ө'], .cls false [.rng 'М' 'М', .rng 'м' 'м'], .cls false [.rng 'Н' 'Н', .rng 'н' 'н'], .cls false [.rng 'Ө' 'Ө', .rng 'ө' 'ө']], .seqs [.number, .lit [' '], .cls false [.rng 'Ж' 'Ж', .rng 'ж' 'ж'], .cls false [.rng 'И' 'И', .rng 'и' 'и'], .cls false [.rng 'Л' 'Л', .rng 'л' 'л'], .cls false [.rng 'И' 'И', .rng 'и' 'и'], .cls false [.rng 'И' 'И', .rng 'и' 'и'], .cls false [.rng 'Н' 'Н', .rng 'н' 'н'], .lit [' '], .cls false [.rng 'Ө' 'Ө', .rng 'ө' 'ө'], .cls false [.rng 'М' 'М', .rng 'м' 'м'], .cls false [.rng 'Н' 'Н', .rng 'н' 'н'], .cls false [.rng 'Ө' 'Ө', .rng 'ө' 'ө']], .seqs [.number, .lit [' '], .cls false [.rng 'С' 'С', .rng 'с' 'с', .rng 'ᲃ' 'ᲃ'], .cls false [.rng 'А' 'А', .rng 'а' 'а'], .cls false [.rng 'Р' 'Р', .rng 'р' 'р'], .cls false [.rng 'Ы' 'Ы', .rng 'ы' 'ы'], .cls false [.rng 'Н' 'Н', .rng 'н' 'н'], .lit [' '], .cls false [.rng 'Д' 'Д', .rng 'д' 'д', .rng 'ᲁ' 'ᲁ'], .cls false [.rng 'А' 'А', .rng 'а' 'а'], .cls false [.rng 'Р' 'Р', .rng 'р' 'р'], .cls false [.rng 'А' 'А', .rng 'а' 'а'], .cls false [.rng 'А' 'А', .rng 'а' 'а']], .seqs [.number, .lit [' '], .cls false [.rng 'Ц' 'Ц', .rng 'ц' 'ц'], .cls false [.rng 'А' 'А', .rng 'а' 'а'], .cls false [.rng 'Г' 'Г', .rng 'г' 'г'], .cls false [.rng 'И' 'И', .rng 'и' 'и'], .cls false [.rng 'И' 'И', .rng 'и' 'и'], .cls false [.rng 'Н' 'Н', .rng 'н' 'н'], .lit [' '], .cls false [.rng 'Ө' 'Ө', .rng 'ө' 'ө'], .cls false [.rng 'М' 'М', .rng 'м' 'м'], .cls false [.rng 'Н' 'Н', .rng 'н' 'н'], .cls false [.rng 'Ө' 'Ө', .rng 'ө' 'ө']], .seqs [.number, .lit [' '], .cls false [.rng 'Ө' 'Ө', .rng 'ө' 'ө'], .cls false [.rng 'Д' 'Д', .rng 'д' 'д', .rng 'ᲁ' 'ᲁ'], .cls false [.rng 'Р' 'Р', .rng 'р' 'р'], .cls false [.rng 'И' 'И', .rng 'и' 'и'], .cls false [.rng 'И' 'И', .rng 'и' 'и'], .cls false [.rng 'Н' 'Н', .rng 'н' 'н'], .lit [' '], .cls false [.rng 'Ө' 'Ө', .rng 'ө' 'ө'], .cls false [.rng 'М' 'М', .rng 'м' 'м'], .cls false [.rng 'Н' 'Н', .rng 'н' 'н'], .cls false [.rng 'Ө' 'Ө', .rng 'ө' 'ө']], .seqs [.number, .lit [' '], .cls false [.rng 'С' 'С', .rng 'с' 'с', .rng 'ᲃ' 'ᲃ'], .cls false [.rng 'А' 'А', .rng 'а' 'а'], .cls false [.rng 'Р' 'Р', .rng 'р' 'р'], .cls false [.rng 'Ы' 'Ы', .rng 'ы' 'ы'], .cls false [.rng 'Н' 'Н', .rng 'н' 'н'], .lit [' '], .cls false [.rng 'Ө' 'Ө', .rng 'ө' 'ө'], .cls false [.rng 'М' 'М', .rng 'м' 'м'], .cls false [.rng 'Н' 'Н', .rng 'н' 'н'], .cls false [.rng 'Ө' 'Ө', .rng 'ө' 'ө']], .seqs [.number, .lit [' '], .cls false [.rng 'М' 'М', .rng 'м' 'м'], .cls false [.rng 'И' 'И', .rng 'и' 'и'], .cls false [.rng 'Н' 'Н', .rng 'н' 'н'], .lit [' '], .cls false [.rng 'Д' 'Д', .rng 'д' 'д', .rng 'ᲁ' 'ᲁ'], .cls false [.rng 'А' 'А', .rng 'а' 'а'], .cls false [.rng 'Р' 'Р', .rng 'р' 'р'], .cls false [.rng 'А' 'А', .rng 'а' 'а'], .cls false [.rng 'А' 'А', .rng 'а' 'а']], .seqs [.number, .lit [' '], .cls false [.rng 'С' 'С', .rng 'с' 'с', .rng 'ᲃ' 'ᲃ'], .cls false [.rng 'Е' 'Е', .rng 'е' 'е'], .cls false [.rng 'К' 'К', .rng 'к' 'к'], .lit [' '], .cls false [.rng 'Д' 'Д', .rng 'д' 'д', .rng 'ᲁ' 'ᲁ'], .cls false [.rng 'А' 'А', .rng 'а' 'а'], .cls false [.rng 'Р' 'Р', .rng 'р' 'р'], .cls false [.rng 'А' 'А', .rng 'а' 'а'], .cls false [.rng 'А' 'А', .rng 'а' 'а']], .seqs [.number, .lit [' '], .cls false [.rng 'М' 'М', .rng 'м' 'м'], .cls false [.rng 'И' 'И', .rng 'и' 'и'], .cls false [.rng 'Н' 'Н', .rng 'н' 'н'], .lit [' '], .cls false [.rng 'Ө' 'Ө', .rng 'ө' 'ө'], .cls false [.rng 'М' 'М', .rng 'м' 'м'], .cls false [.rng 'Н' 'Н', .rng 'н' 'н'], .cls false [.rng 'Ө' 'Ө', .rng 'ө' 'ө']], .seqs [.number, .lit [' '], .cls false [.rng 'С' 'С', .rng 'с' 'с', .rng 'ᲃ' 'ᲃ'], .cls false [.rng 'Е' 'Е', .rng 'е' 'е'], .cls false [.rng 'К' 'К', .rng 'к' 'к'], .lit [' '], .cls false [.rng 'Ө' 'Ө', .rng 'ө' 'ө'], .cls false [.rng 'М' 'М', .rng 'м' 'м'], .cls false [.rng 'Н' 'Н', .rng 'н' 'н'], .cls false [.rng 'Ө' 'Ө', .rng 'ө' 'ө']], .seqs [.number, .lit [' '], .cls false [.rng 'Ц' 'Ц', .rng 'ц' 'ц'], .lit [' '], .cls false [.rng 'Д' 'Д', .rng 'д' 'д', .rng 'ᲁ' 'ᲁ'], .cls false [.rng 'А' 'А', .rng 'а' 'а'], .cls false [.rng 'Р' 'Р', .rng 'р' 'р'], .cls false [.rng 'А' 'А', .rng 'а' 'а'], .cls false [.rng 'А' 'А', .rng 'а' 'а']], .seqs [.number, .lit [' '], .cls false [.rng 'Ц' 'Ц', .rng 'ц' 'ц'], .lit [' '], .cls false [.rng 'Ө' 'Ө', .rng 'ө' 'ө'], .cls false [.rng 'М' 'М', .rng 'м' 'м'], .cls false [.rng 'Н' 'Н', .rng 'н' 'н'], .cls false [.rng 'Ө' 'Ө', .rng 'ө' 'ө']], .seqs [.number, .lit [' '], .cls false [.rng 'Ө' 'Ө', .rng 'ө' 'ө'], .cls false [.rng 'Д' 'Д', .rng 'д' 'д', .rng 'ᲁ' 'ᲁ'], .cls false [.rng 'Ө' 'Ө', .rng 'ө' 'ө'], .cls false [.rng 'Р' 'Р', .rng 'р' 'р'], .cls false [.rng 'Т' 'Т', .rng 'т' 'т', .rng 'ᲄ' 'ᲄ', .rng 'ᲅ' 'ᲅ']]]), .eos]),
  knownWords :=
   [['а', 'р', 'в', 'а', 'н', ' ', 'х', 'о', 'е', 'р', 'д', 'у', 'г', 'а', 'а', 'р', ' ', 'с', 'а', 'р'], ['ө', 'н', 'г', 'ө', 'р', 'с', 'ө', 'н', ' ', 'д', 'о', 'л', 'о', 'о', ' ', 'х', 'о', 'н', 'о', 'г'], ['а', 'р', 'в', 'а', 'н', ' ', 'н', 'э', 'г', 'д', 'ү', 'г', 'э', 'э', 'р', ' ', 'с', 'а', 'р'], ['и', 'р', 'э', 'х', ' ', 'д', 'о', 'л', 'о', 'о', ' ', 'х', 'о', 'н', 'о', 'г'], ['г', 'у', 'р', 'а', 'в', 'д', 'у', 'г', 'а', 'а', 'р', ' ', 'с', 'а', 'р'], ['д', 'ө', 'р', 'ө', 'в', 'д', 'ү', 'г', 'э', 'э', 'р', ' ', 'с', 'а', 'р'], ['з', 'у', 'р', 'г', 'а', 'д', 'у', 'г', 'а', 'а', 'р', ' ', 'с', 'а', 'р'], ['э', 'н', 'э', ' ', 'д', 'о', 'л', 'о', 'о', ' ', 'х', 'о', 'н', 'о', 'г'], ['а', 'р', 'а', 'в', 'д', 'у', 'г', 'а', 'а', 'р', ' ', 'с', 'а', 'р'], ['н', 'а', 'и', 'м', 'д', 'у', 'г', 'а', 'а', 'р', ' ', 'с', 'а', 'р'], ['х', 'о', 'е', 'р', 'д', 'у', 'г', 'а', 'а', 'р', ' ', 'с', 'а', 'р'], ['д', 'о', 'л', 'д', 'у', 'г', 'а', 'а', 'р', ' ', 'с', 'а', 'р'], ['н', 'э', 'г', 'д', 'ү', 'г', 'э', 'э', 'р', ' ', 'с', 'а', 'р'], ['т', 'а', 'в', 'д', 'у', 'г', 'а', 'а', 'р', ' ', 'с', 'а', 'р'], ['е', 'с', 'д', 'ү', 'г', 'э', 'э', 'р', ' ', 'с', 'а', 'р'], ['ө', 'н', 'г', 'ө', 'р', 'с', 'ө', 'н', ' ', 'ж', 'и', 'л'], ['ө', 'н', 'г', 'ө', 'р', 'с', 'ө', 'н', ' ', 'с', 'а', 'р'], ['д', 'о', 'л', 'о', 'о', ' ', 'х', 'о', 'н', 'о', 'г'], ['э', 'н', 'э', ' ', 'м', 'и', 'н', 'у', 'т'], ['1', '0', '-', 'р', ' ', 'с', 'а', 'р'], ['1', '1', '-', 'р', ' ', 'с', 'а', 'р'], ['1', '2', '-', 'р', ' ', 'с', 'а', 'р'], ['и', 'р', 'э', 'х', ' ', 'ж', 'и', 'л'], ['и', 'р', 'э', 'х', ' ', 'с', 'а', 'р'], ['1', '-', 'р', ' ', 'с', 'а', 'р'], ['2', '-', 'р', ' ', 'с', 'а', 'р'], ['3', '-', 'р', ' ', 'с', 'а', 'р'], ['4', '-', 'р', ' ', 'с', 'а', 'р'], ['5', '-', 'р', ' ', 'с', 'а', 'р'], ['6', '-', 'р', ' ', 'с', 'а', 'р'], ['7', '-', 'р', ' ', 'с', 'а', 'р'], ['8', '-', 'р', ' ', 'с', 'а', 'р'], ['9', '-', 'р', ' ', 'с', 'а', 'р'], ['м', 'а', 'р', 'г', 'а', 'а', 'ш'], ['э', 'н', 'э', ' ', 'ж', 'и', 'л'], ['э', 'н', 'э', ' ', 'с', 'а', 'р'], ['э', 'н', 'э', ' ', 'ц', 'а', 'г'], ['ө', 'н', 'ө', 'ө', 'д', 'ө', 'р'], ['ө', 'ч', 'и', 'г', 'д', 'ө', 'р'], ['б', 'а', 'а', 'с', 'а', 'н'], ['л', 'х', 'а', 'г', 'в', 'а'], ['м', 'я', 'г', 'м', 'а', 'р'], ['с', 'е', 'к', 'у', 'н', 'д'], ['б', 'я', 'м', 'б', 'а'], ['д', 'а', 'в', 'а', 'а'], ['м', 'и', 'н', 'у', 'т'], ['п', 'ү', 'р', 'э', 'в'], ['о', 'д', 'о', 'о'], ['ө', 'д', 'ө', 'р'], ['g', 'm', 't'], ['u', 't', 'c'], ['ж', 'и', 'л'], ['м', 'и', 'н'], ['н', 'я', 'м'], ['с', 'а', 'р'], ['с', 'е', 'к'], ['ц', 'а', 'г'], ['7', 'х'], ['a', 'm'], ['p', 'm'], ['б', 'а'], ['б', 'я'], ['д', 'а'], ['л', 'х'], ['м', 'я'], ['н', 'я'], ['п', 'ү'], ['ү', 'х'], ['ү', 'ө'], [' '], ['\''], ['+'], [','], ['-'], ['.'], ['/'], [':'], [';'], ['@'], ['['], [']'], ['z'], ['|'], ['ц']] }

/-- internal/data/mr.go: `mr_Locale`. -/
def mrLang : LangData := { mrDict with
  relativeRegexes :=
   [(.seqs [.grp 1 (.number), .lit [' ', 'आ', 'ठ', 'व', 'ड', 'य', 'ा', 'प', 'र', 'व', 'ी']], [.ref 1, .lit [' ', 'w', 'e', 'e', 'k', ' ', 'a', 'g', 'o']]),
    (.seqs [.grp 1 (.number), .lit [' ', 'म', 'ह', 'ि', 'न', 'य', 'ा', 'प', 'र', 'व', 'ी']], [.ref 1, .lit [' ', 'm', 'o', 'n', 't', 'h', ' ', 'a', 'g', 'o']]),
    (.seqs [.grp 1 (.number), .lit [' ', 'म', 'ि', 'न', 'ि', 'ट', 'ा', 'प', 'र', 'व', 'ी']], [.ref 1, .lit [' ', 'm', 'i', 'n', 'u', 't', 'e', ' ', 'a', 'g', 'o']]),
    (.seqs [.grp 1 (.number), .lit [' ', 'आ', 'ठ', 'व', 'ड', 'य', 'ा', 'म', 'ध', 'य']], [.lit ['i', 'n', ' '], .ref 1, .lit [' ', 'w', 'e', 'e', 'k']]),
    (.seqs [.grp 1 (.number), .lit [' ', 'द', 'ि', 'व', 'स', 'ा', 'प', 'र', 'व', 'ी']], [.ref 1, .lit [' ', 'd', 'a', 'y', ' ', 'a', 'g', 'o']]),
    (.seqs [.grp 1 (.number), .lit [' ', 'म', 'ह', 'ि', 'न', 'य', 'ा', 'म', 'ध', 'य']], [.lit ['i', 'n', ' '], .ref 1, .lit [' ', 'm', 'o', 'n', 't', 'h']]),
    (.seqs [.grp 1 (.number), .lit [' ', 'म', 'ि', 'न', 'ि', ' ', 'प', 'र', 'व', 'ी']], [.ref 1, .lit [' ', 'm', 'i', 'n', 'u', 't', 'e', ' ', 'a', 'g', 'o']]),
    (.seqs [.grp 1 (.number), .lit [' ', 'म', 'ि', 'न', 'ि', 'ट', 'ा', 'म', 'ध', 'य']], [.lit ['i', 'n', ' '], .ref 1, .lit [' ', 'm', 'i', 'n', 'u', 't', 'e']]),
    (.seqs [.grp 1 (.number), .lit [' ', 'त', 'ा', 'स', 'ा', 'प', 'र', 'व', 'ी']], [.ref 1, .lit [' ', 'h', 'o', 'u', 'r', ' ', 'a', 'g', 'o']]),
    (.seqs [.grp 1 (.number), .lit [' ', 'द', 'ि', 'व', 'स', 'ा', 'म', 'ध', 'य']], [.lit ['i', 'n', ' '], .ref 1, .lit [' ', 'd', 'a', 'y']]),
    (.seqs [.grp 1 (.number), .lit [' ', 'म', 'ि', 'न', 'ि', ' ', 'म', 'ध', 'य']], [.lit ['i', 'n', ' '], .ref 1, .lit [' ', 'm', 'i', 'n', 'u', 't', 'e']]),
    (.seqs [.grp 1 (.number), .lit [' ', 'व', 'र', 'ष', 'ा', 'प', 'र', 'व', 'ी']], [.ref 1, .lit [' ', 'y', 'e', 'a', 'r', ' ', 'a', 'g', 'o']]),
    (.seqs [.grp 1 (.number), .lit [' ', 'स', 'क', 'द', 'ा', 'प', 'र', 'व', 'ी']], [.ref 1, .lit [' ', 's', 'e', 'c', 'o', 'n', 'd', ' ', 'a', 'g', 'o']]),
    (.seqs [.grp 1 (.number), .lit [' ', 'त', 'ा', 'स', 'ा', 'म', 'ध', 'य']], [.lit ['i', 'n', ' '], .ref 1, .lit [' ', 'h', 'o', 'u', 'r']]),
    (.seqs [.grp 1 (.number), .lit [' ', 'व', 'र', 'ष', 'ा', 'म', 'ध', 'य']], [.lit ['i', 'n', ' '], .ref 1, .lit [' ', 'y', 'e', 'a', 'r']]),
    (.seqs [.grp 1 (.number), .lit [' ', 'स', 'क', 'द', 'ा', 'म', 'ध', 'य']], [.lit ['i', 'n', ' '], .ref 1, .lit [' ', 's', 'e', 'c', 'o', 'n', 'd']]),
    (.seqs [.grp 1 (.number), .lit [' ', 'स', ' ', 'प', 'र', 'व', 'ी']], [.ref 1, .lit [' ', 's', 'e', 'c', 'o', 'n', 'd', ' ', 'a', 'g', 'o']]),
    (.seqs [.grp 1 (.number), .lit [' ', 'स', ' ', 'म', 'ध', 'य']], [.lit ['i', 'n', ' '], .ref 1, .lit [' ', 's', 'e', 'c', 'o', 'n', 'd']])],
  rxCombined := some (.seqs [.grp 1 (.alts [.bos, .cls true [.letter, .mark, .digit], .lit ['_']]), .grp 2 (.alts [.seqs [.number, .lit [' ', 'आ', 'ठ', 'व', 'ड', 'य', 'ा', 'प', 'र', 'व', 'ी']], .seqs [.number, .lit [' ', 'म', 'ह', 'ि', 'न', 'य', 'ा', 'प', 'र', 'व', 'ी']], .seqs [.number, .lit [' ', 'म', 'ि', 'न', 'ि', 'ट', 'ा', 'प', 'र', 'व', 'ी']], .seqs [.number, .lit [' ', 'आ', 'ठ', 'व', 'ड', 'य', 'ा', 'म', 'ध', 'य']], .seqs [.number, .lit [' ', 'द', 'ि', 'व', 'स', 'ा', 'प', 'र', 'व', 'ी']], .seqs [.number, .lit [' ', 'म', 'ह', 'ि', 'न', 'य', 'ा', 'म', 'ध', 'य']], .seqs [.number, .lit [' ', 'म', 'ि', 'न', 'ि', ' ', 'प', 'र', 'व', 'ी']], .seqs [.number, .lit [' ', 'म', 'ि', 'न', 'ि', 'ट', 'ा', 'म', 'ध', 'य']], .seqs [.number, .lit [' ', 'त', 'ा', 'स', 'ा', 'प', 'र', 'व', 'ी']], .seqs [.number, .lit [' ', 'द', 'ि', 'व', 'स', 'ा', 'म', 'ध', 'य']], .seqs [.number, .lit [' ', 'म', 'ि', 'न', 'ि', ' ', 'म', 'ध', 'य']], .seqs [.number, .lit [' ', 'व', 'र', 'ष', 'ा', 'प', 'र', 'व', 'ी']], .seqs [.number, .lit [' ', 'स', 'क', 'द', 'ा', 'प', 'र', 'व', 'ी']], .seqs [.number, .lit [' ', 'त', 'ा', 'स', 'ा', 'म', 'ध', 'य']], .seqs [.number, .lit [' ', 'व', 'र', 'ष', 'ा', 'म', 'ध', 'य']], .seqs [.number, .lit [' ', 'स', 'क', 'द', 'ा', 'म', 'ध', 'य']], .seqs [.number, .lit [' ', 'स', ' ', 'प', 'र', 'व', 'ी']], .seqs [.number, .lit [' ', 'स', ' ', 'म', 'ध', 'य']]]), .grp 3 (.alts [.eos, .cls true [.letter, .mark, .digit], .lit ['_']])], 3),
  rxExact := some (.seqs [.bos, .grp 1 (.alts [.seqs [.number, .lit [' ', 'आ', 'ठ', 'व', 'ड', 'य', 'ा', 'प', 'र', 'व', 'ी']], .seqs [.number, .lit [' ', 'म', 'ह', 'ि', 'न', 'य', 'ा', 'प', 'र', 'व', 'ी']], .seqs [.number, .lit [' ', 'म', 'ि', 'न', 'ि', 'ट', 'ा', 'प', 'र', 'व', 'ी']], .seqs [.number, .lit [' ', 'आ', 'ठ', 'व', 'ड', 'य', 'ा', 'म', 'ध', 'य']], .seqs [.number, .lit [' ', 'द', 'ि', 'व', 'स', 'ा', 'प', 'र', 'व', 'ी']], .seqs [.number, .lit [' ', 'म', 'ह', 'ि', 'न', 'य', 'ा', 'म', 'ध', 'य']], .seqs [.number, .lit [' ', 'म', 'ि', 'न', 'ि', ' ', 'प', 'र', 'व', 'ी']], .seqs [.number, .lit [' ', 'म', 'ि', 'न', 'ि', 'ट', 'ा', 'म', 'ध', 'य']], .seqs [.number, .lit [' ', 'त', 'ा', 'स', 'ा', 'प', 'र', 'व', 'ी']], .seqs [.number, .lit [' ', 'द', 'ि', 'व', 'स', 'ा', 'म', 'ध', 'य']], .seqs [.number, .lit [' ', 'म', 'ि', 'न', 'ि', ' ', 'म', 'ध', 'य']], .seqs [.number, .lit [' ', 'व', 'र', 'ष', 'ा', 'प', 'र', 'व', 'ी']], .seqs [.number, .lit [' ', 'स', 'क', 'द', 'ा', 'प', 'र', 'व', 'ी']], .seqs [.number, .lit [' ', 'त', 'ा', 'स', 'ा', 'म', 'ध', 'य']], .seqs [.number, .lit [' ', 'व', 'र', 'ष', 'ा', 'म', 'ध', 'य']], .seqs [.number, .lit [' ', 'स', 'क', 'द', 'ा', 'म', 'ध', 'य']], .seqs [.number, .lit [' ', 'स', ' ', 'प', 'र', 'व', 'ी']], .seqs [.number, .lit [' ', 'स', ' ', 'म', 'ध', 'य']]]), .eos]),
  knownWords :=
   [['म', 'ा', 'ग', 'ी', 'ल', ' ', 'आ', 'ठ', 'व', 'ड', 'ा'], ['म', 'ा', 'ग', 'ी', 'ल', ' ', 'म', 'ह', 'ि', 'न', 'ा'], ['प', 'ढ', 'ी', 'ल', ' ', 'आ', 'ठ', 'व', 'ड', 'ा'], ['प', 'ढ', 'ी', 'ल', ' ', 'म', 'ह', 'ि', 'न', 'ा'], ['य', 'ा', ' ', 'म', 'ि', 'न', 'ि', 'ट', 'ा', 'त'], ['म', 'ा', 'ग', 'ी', 'ल', ' ', 'व', 'र', 'ष'], ['प', 'ढ', 'ी', 'ल', ' ', 'व', 'र', 'ष'], ['ह', 'ा', ' ', 'आ', 'ठ', 'व', 'ड', 'ा'], ['ह', 'ा', ' ', 'म', 'ह', 'ि', 'न', 'ा'], ['ज', 'ा', 'न', 'व', 'ा', 'र', 'ी'], ['फ', 'ब', 'र', 'व', 'ा', 'र', 'ी'], ['ऑ', 'क', 'ट', 'ो', 'ब', 'र'], ['न', 'ो', 'व', 'ह', 'ब', 'र'], ['म', 'ग', 'ळ', 'व', 'ा', 'र'], ['र', 'व', 'ि', 'व', 'ा', 'र'], ['श', 'क', 'र', 'व', 'ा', 'र'], ['श', 'न', 'ि', 'व', 'ा', 'र'], ['स', 'ो', 'म', 'व', 'ा', 'र'], ['आ', 'ठ', 'व', 'ड', 'ा'], ['ए', 'प', 'र', 'ि', 'ल'], ['ग', 'र', 'व', 'ा', 'र'], ['ड', 'ि', 'स', 'ब', 'र'], ['त', 'ा', 'स', 'ा', 'त'], ['ब', 'ध', 'व', 'ा', 'र'], ['म', 'ह', 'ि', 'न', 'ा'], ['म', 'ि', 'न', 'ि', 'ट'], ['स', 'प', 'ट', 'ब', 'र'], ['ह', ' ', 'व', 'र', 'ष'], ['आ', 'त', 'त', 'ा'], ['उ', 'द', 'य', 'ा'], ['ए', 'प', 'र', 'ि'], ['ऑ', 'क', 'ट', 'ो'], ['ऑ', 'ग', 'स', 'ट'], ['द', 'ि', 'व', 'स'], ['न', 'ो', 'व', 'ह'], ['म', 'ा', 'र', 'च'], ['g', 'm', 't'], ['u', 't', 'c'], ['क', 'ा', 'ल'], ['ज', 'ा', 'न'], ['ड', 'ि', 'स'], ['त', 'ा', 'स'], ['फ', 'ब', 'र'], ['म', 'ग', 'ळ'], ['र', 'व', 'ि'], ['व', 'र', 'ष'], ['श', 'क', 'र'], ['श', 'न', 'ि'], ['स', 'क', 'द'], ['स', 'प', 'ट'], ['स', 'ो', 'म'], ['a', 'm'], ['p', 'm'], ['आ', 'ज'], ['ऑ', 'ग'], ['ग', 'र'], ['ज', 'न'], ['ज', 'ल'], ['ब', 'ध'], ['म', 'उ'], ['म', 'प'], ['म', 'ि'], [' '], ['\''], ['+'], [','], ['-'], ['.'], ['/'], [':'], [';'], ['@'], ['['], [']'], ['z'], ['|'], ['म'], ['स']] }

/-- internal/data/ms.go: `ms_Locale`. -/
def msLang : LangData := { msDict with
  relativeRegexes :=
   [(.seqs [.lit ['d', 'a', 'l', 'a', 'm', ' '], .grp 1 (.number), .lit [' ', 'm', 'i', 'n', 'g', 'g', 'u']], [.lit ['i', 'n', ' '], .ref 1, .lit [' ', 'w', 'e', 'e', 'k']]),
    (.seqs [.grp 1 (.number), .lit [' ', 'm', 'i', 'n', 'g', 'g', 'u', ' ', 'l', 'a', 'l', 'u']], [.ref 1, .lit [' ', 'w', 'e', 'e', 'k', ' ', 'a', 'g', 'o']]),
    (.seqs [.lit ['d', 'a', 'l', 'a', 'm', ' '], .grp 1 (.number), .lit [' ', 'b', 'u', 'l', 'a', 'n']], [.lit ['i', 'n', ' '], .ref 1, .lit [' ', 'm', 'o', 'n', 't', 'h']]),
    (.seqs [.lit ['d', 'a', 'l', 'a', 'm', ' '], .grp 1 (.number), .lit [' ', 'm', 'i', 'n', 'i', 't']], [.lit ['i', 'n', ' '], .ref 1, .lit [' ', 'm', 'i', 'n', 'u', 't', 'e']]),
    (.seqs [.grp 1 (.number), .lit [' ', 'b', 'u', 'l', 'a', 'n', ' ', 'l', 'a', 'l', 'u']], [.ref 1, .lit [' ', 'm', 'o', 'n', 't', 'h', ' ', 'a', 'g', 'o']]),
    (.seqs [.grp 1 (.number), .lit [' ', 'm', 'i', 'n', 'i', 't', ' ', 'l', 'a', 'l', 'u']], [.ref 1, .lit [' ', 'm', 'i', 'n', 'u', 't', 'e', ' ', 'a', 'g', 'o']]),
    (.seqs [.grp 1 (.number), .lit [' ', 't', 'a', 'h', 'u', 'n', ' ', 'l', 'a', 'l', 'u']], [.ref 1, .lit [' ', 'y', 'e', 'a', 'r', ' ', 'a', 'g', 'o']]),
    (.seqs [.lit ['d', 'a', 'l', 'a', 'm', ' '], .grp 1 (.number), .lit [' ', 'h', 'a', 'r', 'i']], [.lit ['i', 'n', ' '], .ref 1, .lit [' ', 'd', 'a', 'y']]),
    (.seqs [.lit ['d', 'a', 'l', 'a', 'm', ' '], .grp 1 (.number), .lit [' ', 's', 'a', 'a', 't']], [.lit ['i', 'n', ' '], .ref 1, .lit [' ', 'y', 'e', 'a', 'r']]),
    (.seqs [.grp 1 (.number), .lit [' ', 'h', 'a', 'r', 'i', ' ', 'l', 'a', 'l', 'u']], [.ref 1, .lit [' ', 'd', 'a', 'y', ' ', 'a', 'g', 'o']]),
    (.seqs [.grp 1 (.number), .lit [' ', 's', 'a', 'a', 't', ' ', 'l', 'a', 'l', 'u']], [.ref 1, .lit [' ', 's', 'e', 'c', 'o', 'n', 'd', ' ', 'a', 'g', 'o']]),
    (.seqs [.lit ['d', 'a', 'l', 'a', 'm', ' '], .grp 1 (.number), .lit [' ', 'j', 'a', 'm']], [.lit ['i', 'n', ' '], .ref 1, .lit [' ', 'h', 'o', 'u', 'r']]),
    (.seqs [.lit ['d', 'a', 'l', 'a', 'm', ' '], .grp 1 (.number), .lit [' ', 't', 'h', 'n']], [.lit ['i', 'n', ' '], .ref 1, .lit [' ', 'y', 'e', 'a', 'r']]),
    (.seqs [.grp 1 (.number), .lit [' ', 'b', 'l', 'n', ' ', 'l', 'a', 'l', 'u']], [.ref 1, .lit [' ', 'm', 'o', 'n', 't', 'h', ' ', 'a', 'g', 'o']]),
    (.seqs [.grp 1 (.number), .lit [' ', 'j', 'a', 'm', ' ', 'l', 'a', 'l', 'u']], [.ref 1, .lit [' ', 'h', 'o', 'u', 'r', ' ', 'a', 'g', 'o']]),
    (.seqs [.grp 1 (.number), .lit [' ', 'm', 'g', 'u', ' ', 'l', 'a', 'l', 'u']], [.ref 1, .lit [' ', 'w', 'e', 'e', 'k', ' ', 'a', 'g', 'o']]),
    (.seqs [.grp 1 (.number), .lit [' ', 'm', 'i', 'n', ' ', 'l', 'a', 'l', 'u']], [.ref 1, .lit [' ', 'm', 'i', 'n', 'u', 't', 'e', ' ', 'a', 'g', 'o']]),
    (.seqs [.grp 1 (.number), .lit [' ', 't', 'h', 'n', ' ', 'l', 'a', 'l', 'u']], [.ref 1, .lit [' ', 'y', 'e', 'a', 'r', ' ', 'a', 'g', 'o']]),
    (.seqs [.lit ['d', 'l', 'm', ' '], .grp 1 (.number), .lit [' ', 'h', 'a', 'r', 'i']], [.lit ['i', 'n', ' '], .ref 1, .lit [' ', 'd', 'a', 'y']]),
    (.seqs [.lit ['d', 'l', 'm', ' '], .grp 1 (.number), .lit [' ', 's', 'a', 'a', 't']], [.lit ['i', 'n', ' '], .ref 1, .lit [' ', 's', 'e', 'c', 'o', 'n', 'd']]),
    (.seqs [.lit ['d', 'l', 'm', ' '], .grp 1 (.number), .lit [' ', 'b', 'l', 'n']], [.lit ['i', 'n', ' '], .ref 1, .lit [' ', 'm', 'o', 'n', 't', 'h']]),
    (.seqs [.lit ['d', 'l', 'm', ' '], .grp 1 (.number), .lit [' ', 'j', 'a', 'm']], [.lit ['i', 'n', ' '], .ref 1, .lit [' ', 'h', 'o', 'u', 'r']]),
    (.seqs [.lit ['d', 'l', 'm', ' '], .grp 1 (.number), .lit [' ', 'm', 'g', 'u']], [.lit ['i', 'n', ' '], .ref 1, .lit [' ', 'w', 'e', 'e', 'k']]),
    (.seqs [.lit ['d', 'l', 'm', ' '], .grp 1 (.number), .lit [' ', 'm', 'i', 'n']], [.lit ['i', 'n', ' '], .ref 1, .lit [' ', 'm', 'i', 'n', 'u', 't', 'e']])],
  rxCombined := some (.seqs [.grp 1 (.alts [.bos, .cls true [.letter, .mark, .digit], .lit ['_']]), .grp 2 (.alts [.seqs [.lit ['d', 'a', 'l', 'a', 'm', ' '], .number, .lit [' ', 'm', 'i', 'n', 'g', 'g', 'u']], .seqs [.number, .lit [' ', 'm', 'i', 'n', 'g', 'g', 'u', ' ', 'l', 'a', 'l', 'u']], .seqs [.lit ['d', 'a', 'l', 'a', 'm', ' '], .number, .lit [' ', 'b', 'u', 'l', 'a', 'n']], .seqs [.lit ['d', 'a', 'l', 'a', 'm', ' '], .number, .lit [' ', 'm', 'i', 'n', 'i', 't']], .seqs [.number, .lit [' ', 'b', 'u', 'l', 'a', 'n', ' ', 'l', 'a', 'l', 'u']], .seqs [.number, .lit [' ', 'm', 'i', 'n', 'i', 't', ' ', 'l', 'a', 'l', 'u']], .seqs [.number, .lit [' ', 't', 'a', 'h', 'u', 'n', ' ', 'l', 'a', 'l', 'u']], .seqs [.lit ['d', 'a', 'l', 'a', 'm', ' '], .number, .lit [' ', 'h', 'a', 'r', 'i']], .seqs [.lit ['d', 'a', 'l', 'a', 'm', ' '], .number, .lit [' ', 's', 'a', 'a', 't']], .seqs [.number, .lit [' ', 'h', 'a', 'r', 'i', ' ', 'l', 'a', 'l', 'u']], .seqs [.number, .lit [' ', 's', 'a', 'a', 't', ' ', 'l', 'a', 'l', 'u']], .seqs [.lit ['d', 'a', 'l', 'a', 'm', ' '], .number, .lit [' ', 'j', 'a', 'm']], .seqs [.lit ['d', 'a', 'l', 'a', 'm', ' '], .number, .lit [' ', 't', 'h', 'n']], .seqs [.number, .lit [' ', 'b', 'l', 'n', ' ', 'l', 'a', 'l', 'u']], .seqs [.number, .lit [' ', 'j', 'a', 'm', ' ', 'l', 'a', 'l', 'u']], .seqs [.number, .lit [' ', 'm', 'g', 'u', ' ', 'l', 'a', 'l', 'u']], .seqs [.number, .lit [' ', 'm', 'i', 'n', ' ', 'l', 'a', 'l', 'u']], .seqs [.number, .lit [' ', 't', 'h', 'n', ' ', 'l', 'a', 'l', 'u']], .seqs [.lit ['d', 'l', 'm', ' '], .number, .lit [' ', 'h', 'a', 'r', 'i']], .seqs [.lit ['d', 'l', 'm', ' '], .number, .lit [' ', 's', 'a', 'a', 't']], .seqs [.lit ['d', 'l', 'm', ' '], .number, .lit [' ', 'b', 'l', 'n']], .seqs [.lit ['d', 'l', 'm', ' '], .number, .lit [' ', 'j', 'a', 'm']], .seqs [.lit ['d', 'l', 'm', ' '], .number, .lit [' ', 'm', 'g', 'u']], .seqs [.lit ['d', 'l', 'm', ' '], .number, .lit [' ', 'm', 'i', 'n']]]), .grp 3 (.alts [.eos, .cls true [.letter, .mark, .digit], .lit ['_']])], 3),
  rxExact := some (.seqs [.bos, .grp 1 (.alts [.seqs [.lit ['d', 'a', 'l', 'a', 'm', ' '], .number, .lit [' ', 'm', 'i', 'n', 'g', 'g', 'u']], .seqs [.number, .lit [' ', 'm', 'i', 'n', 'g', 'g', 'u', ' ', 'l', 'a', 'l', 'u']], .seqs [.lit ['d', 'a', 'l', 'a', 'm', ' '], .number, .lit [' ', 'b', 'u', 'l', 'a', 'n']], .seqs [.lit ['d', 'a', 'l', 'a', 'm', ' '], .number, .lit [' ', 'm', 'i', 'n', 'i', 't']], .seqs [.number, .lit [' ', 'b', 'u', 'l', 'a', 'n', ' ', 'l', 'a', 'l', 'u']], .seqs [.number, .lit [' ', 'm', 'i', 'n', 'i', 't', ' ', 'l', 'a', 'l', 'u']], .seqs [.number, .lit [' ', 't', 'a', 'h', 'u', 'n', ' ', 'l', 'a', 'l', 'u']], .seqs [.lit ['d', 'a', 'l', 'a', 'm', ' '], .number, .lit [' ', 'h', 'a', 'r', 'i']], .seqs [.lit ['d', 'a', 'l', 'a', 'm', ' '], .number, .lit [' ', 's', 'a', 'a', 't']], .seqs [.number, .lit [' ', 'h', 'a', 'r', 'i', ' ', 'l', 'a', 'l', 'u']], .seqs [.number, .lit [' ', 's', 'a', 'a', 't', ' ', 'l', 'a', 'l', 'u']], .seqs [.lit ['d', 'a', 'l', 'a', 'm', ' '], .number, .lit [' ', 'j', 'a', 'm']], .seqs [.lit ['d', 'a', 'l', 'a', 'm', ' '], .number, .lit [' ', 't', 'h', 'n']], .seqs [.number, .lit [' ', 'b', 'l', 'n', ' ', 'l', 'a', 'l', 'u']], .seqs [.number, .lit [' ', 'j', 'a', 'm', ' ', 'l', 'a', 'l', 'u']], .seqs [.number, .lit [' ', 'm', 'g', 'u', ' ', 'l', 'a', 'l', 'u']], .seqs [.number, .lit [' ', 'm', 'i', 'n', ' ', 'l', 'a', 'l', 'u']], .seqs [.number, .lit [' ', 't', 'h', 'n', ' ', 'l', 'a', 'l', 'u']], .seqs [.lit ['d', 'l', 'm', ' '], .number, .lit [' ', 'h', 'a', 'r', 'i']], .seqs [.lit ['d', 'l', 'm', ' '], .number, .lit [' ', 's', 'a', 'a', 't']], .seqs [.lit ['d', 'l', 'm', ' '], .number, .lit [' ', 'b', 'l', 'n']], .seqs [.lit ['d', 'l', 'm', ' '], .number, .lit [' ', 'j', 'a', 'm']], .seqs [.lit ['d', 'l', 'm', ' '], .number, .lit [' ', 'm', 'g', 'u']], .seqs [.lit ['d', 'l', 'm', ' '], .number, .lit [' ', 'm', 'i', 'n']]]), .eos]),
  knownWords :=
   [['p', 'a', 'd', 'a', ' ', 'm', 'i', 'n', 'i', 't', ' ', 'i', 'n', 'i'], ['m', 'i', 'n', 'g', 'g', 'u', ' ', 'd', 'e', 'p', 'a', 'n'], ['b', 'u', 'l', 'a', 'n', ' ', 'd', 'e', 'p', 'a', 'n'], ['m', 'i', 'n', 'g', 'g', 'u', ' ', 'l', 'a', 'l', 'u'], ['t', 'a', 'h', 'u', 'n', ' ', 'd', 'e', 'p', 'a', 'n'], ['b', 'u', 'l', 'a', 'n', ' ', 'l', 'a', 'l', 'u'], ['m', 'i', 'n', 'g', 'g', 'u', ' ', 'i', 'n', 'i'], ['t', 'a', 'h', 'u', 'n', ' ', 'l', 'a', 'l', 'u'], ['b', 'l', 'n', ' ', 'd', 'e', 'p', 'a', 'n'], ['b', 'u', 'l', 'a', 'n', ' ', 'i', 'n', 'i'], ['m', 'n', 'g', ' ', 'd', 'e', 'p', 'a', 'n'], ['m', 'n', 'g', ' ', 'l', 'e', 'p', 'a', 's'], ['s', 'e', 'p', 't', 'e', 'm', 'b', 'e', 'r'], ['t', 'a', 'h', 'u', 'n', ' ', 'i', 'n', 'i'], ['t', 'h', 'n', ' ', 'd', 'e', 'p', 'a', 'n'], ['t', 'h', 'n', ' ', 'l', 'e', 'p', 'a', 's'], ['b', 'l', 'n', ' ', 'l', 'a', 'l', 'u'], ['d', 'i', 's', 'e', 'm', 'b', 'e', 'r'], ['f', 'e', 'b', 'r', 'u', 'a', 'r', 'i'], ['h', 'a', 'r', 'i', ' ', 'i', 'n', 'i'], ['n', 'o', 'v', 'e', 'm', 'b', 'e', 'r'], ['s', 'e', 'k', 'a', 'r', 'a', 'n', 'g'], ['b', 'l', 'n', ' ', 'i', 'n', 'i'], ['j', 'a', 'm', ' ', 'i', 'n', 'i'], ['j', 'a', 'n', 'u', 'a', 'r', 'i'], ['m', 'n', 'g', ' ', 'i', 'n', 'i'], ['o', 'k', 't', 'o', 'b', 'e', 'r'], ['s', 'e', 'm', 'a', 'l', 'a', 'm'], ['t', 'h', 'n', ' ', 'i', 'n', 'i'], ['j', 'u', 'm', 'a', 'a', 't'], ['k', 'h', 'a', 'm', 'i', 's'], ['m', 'i', 'n', 'g', 'g', 'u'], ['s', 'e', 'l', 'a', 's', 'a'], ['a', 'p', 'r', 'i', 'l'], ['b', 'u', 'l', 'a', 'n'], ['i', 's', 'n', 'i', 'n'], ['j', 'u', 'l', 'a', 'i'], ['m', 'i', 'n', 'i', 't'], ['s', 'a', 'b', 't', 'u'], ['s', 'e', 'm', 'l', 'm'], ['t', 'a', 'h', 'u', 'n'], ['a', 'h', 'a', 'd'], ['e', 's', 'o', 'k'], ['h', 'a', 'r', 'i'], ['o', 'g', 'o', 's'], ['r', 'a', 'b', 'u'], ['s', 'a', 'a', 't'], ['a', 'h', 'd'], ['a', 'p', 'r'], ['b', 'l', 'n'], ['d', 'i', 's'], ['f', 'e', 'b'], ['g', 'm', 't'], ['i', 's', 'n'], ['j', 'a', 'm'], ['j', 'a', 'n'], ['j', 'u', 'l'], ['j', 'u', 'm'], ['j', 'u', 'n'], ['k', 'h', 'a'], ['m', 'a', 'c'], ['m', 'e', 'i'], ['m', 'g', 'u'], ['m', 'i', 'n'], ['n', 'o', 'v'], ['o', 'g', 'o'], ['o', 'k', 't'], ['p', 't', 'g'], ['r', 'a', 'b'], ['s', 'a', 'b'], ['s', 'e', 'l'], ['s', 'e', 'p'], ['t', 'h', 'n'], ['u', 't', 'c'], ['a', 'm'], ['p', 'g'], ['p', 'm'], [' '], ['\''], ['+'], [','], ['-'], ['.'], ['/'], [':'], [';'], ['@'], ['['], [']'], ['z'], ['|']] }

end Verif.Data
