import Verif.Data.Dicts
/-! GENERATED by tools/gen_pats.py from /repo/internal/data; do not edit. -/
set_option autoImplicit false
set_option maxRecDepth 100000
namespace Verif.Data
open Verif.Model

/-- internal/data/ig.go: `ig_Locale`. -/
def igLang : LangData := { igDict with
  knownWords :=
   [['t', 'h', 'i', 's', ' ', 'm', 'i', 'n', 'u', 't', 'e'], ['l', 'a', 's', 't', ' ', 'm', 'o', 'n', 't', 'h'], ['n', 'e', 'x', 't', ' ', 'm', 'o', 'n', 't', 'h'], ['t', 'h', 'i', 's', ' ', 'm', 'o', 'n', 't', 'h'], ['f', 'e', 'b', 'r', 'u', 'w', 'a', 'r', 'i'], ['l', 'a', 's', 't', ' ', 'w', 'e', 'e', 'k'], ['l', 'a', 's', 't', ' ', 'y', 'e', 'a', 'r'], ['m', 'b', 'o', 's', 'i', ' ', 'u', 'k', 'a'], ['n', 'e', 'x', 't', ' ', 'w', 'e', 'e', 'k'], ['n', 'e', 'x', 't', ' ', 'y', 'e', 'a', 'r'], ['t', 'h', 'i', 's', ' ', 'h', 'o', 'u', 'r'], ['t', 'h', 'i', 's', ' ', 'w', 'e', 'e', 'k'], ['t', 'h', 'i', 's', ' ', 'y', 'e', 'a', 'r'], ['j', 'e', 'n', 'u', 'w', 'a', 'r', 'i'], ['n', 'k', 'e', 'j', 'i', 'n', 't', 'a'], ['s', 'e', 'p', 't', 'e', 'm', 'b', 'a'], ['w', 'e', 'n', 'e', 'z', 'd', 'e', 'e'], ['d', 'i', 's', 'e', 'm', 'b', 'a'], ['e', 'l', 'e', 'k', 'e', 'r', 'e'], ['f', 'r', 'a', 'i', 'd', 'e', 'e'], ['n', 'n', 'y', 'a', 'a', 'f', 'u'], ['n', 'o', 'v', 'e', 'm', 'b', 'a'], ['s', 'a', 't', 'o', 'd', 'e', 'e'], ['t', 'i', 'u', 'z', 'd', 'e', 'e'], ['t', 'o', 'o', 'z', 'd', 'e', 'e'], ['m', 'a', 'a', 'c', 'h', 'i'], ['o', 'g', 'o', 'o', 's', 't'], ['o', 'k', 't', 'o', 'b', 'a'], ['u', 'b', 'o', 'c', 'h', 'i'], ['e', 'p', 'r', 'e', 'l'], ['j', 'u', 'l', 'a', 'i'], ['m', 'o', 'n', 'd', 'e'], ['n', 'k', 'e', 'j', 'i'], ['t', 'a', 'a', 't', 'a'], ['e', 'c', 'h', 'i'], ['f', 'r', 'a', 'i'], ['j', 'u', 'u', 'n'], ['o', 'n', 'w', 'a'], ['a', 'f', 'o'], ['d', 'i', 's'], ['e', 'p', 'r'], ['f', 'e', 'b'], ['g', 'm', 't'], ['i', 'z', 'u'], ['j', 'e', 'n'], ['j', 'u', 'l'], ['j', 'u', 'u'], ['m', 'a', 'a'], ['m', 'e', 'e'], ['m', 'o', 'n'], ['n', 'o', 'v'], ['n', 'o', 'w'], ['o', 'g', 'o'], ['o', 'k', 't'], ['s', 'a', 't'], ['s', 'e', 'p'], ['t', 'i', 'u'], ['t', 'o', 'o'], ['u', 'k', 'a'], ['u', 't', 'c'], ['w', 'e', 'n'], ['a', 'm'], ['p', 'm'], [' '], ['\''], ['+'], [','], ['-'], ['.'], ['/'], [':'], [';'], ['@'], ['['], [']'], ['z'], ['|']] }

/-- internal/data/ii.go: `ii_Locale`. -/
def iiLang : LangData := { iiDict with
  knownWords :=
   [['t', 'h', 'i', 's', ' ', 'm', 'i', 'n', 'u', 't', 'e'], ['l', 'a', 's', 't', ' ', 'm', 'o', 'n', 't', 'h'], ['n', 'e', 'x', 't', ' ', 'm', 'o', 'n', 't', 'h'], ['t', 'h', 'i', 's', ' ', 'm', 'o', 'n', 't', 'h'], ['l', 'a', 's', 't', ' ', 'w', 'e', 'e', 'k'], ['l', 'a', 's', 't', ' ', 'y', 'e', 'a', 'r'], ['n', 'e', 'x', 't', ' ', 'w', 'e', 'e', 'k'], ['n', 'e', 'x', 't', ' ', 'y', 'e', 'a', 'r'], ['t', 'h', 'i', 's', ' ', 'h', 'o', 'u', 'r'], ['t', 'h', 'i', 's', ' ', 'w', 'e', 'e', 'k'], ['t', 'h', 'i', 's', ' ', 'y', 'e', 'a', 'r'], ['g', 'm', 't'], ['n', 'o', 'w'], ['u', 't', 'c'], ['ꀋ', 'ꅔ', 'ꉈ'], ['ꃆ', 'ꏂ', 'ꑍ'], ['ꆏ', 'ꊂ', 'ꃘ'], ['ꆏ', 'ꊂ', 'ꇖ'], ['ꆏ', 'ꊂ', 'ꉬ'], ['ꆏ', 'ꊂ', 'ꋍ'], ['ꆏ', 'ꊂ', 'ꌕ'], ['ꆏ', 'ꊂ', 'ꑍ'], ['ꊰ', 'ꊪ', 'ꆪ'], ['ꊰ', 'ꑋ', 'ꆪ'], ['ꑭ', 'ꆏ', 'ꑍ'], ['a', 'm'], ['p', 'm'], ['ꀃ', 'ꑍ'], ['ꁯ', 'ꋒ'], ['ꃘ', 'ꆪ'], ['ꄮ', 'ꈉ'], ['ꆏ', 'ꃘ'], ['ꆏ', 'ꇖ'], ['ꆏ', 'ꉬ'], ['ꆏ', 'ꋍ'], ['ꆏ', 'ꌕ'], ['ꆏ', 'ꑍ'], ['ꇖ', 'ꆪ'], ['ꈬ', 'ꆪ'], ['ꉆ', 'ꆪ'], ['ꉬ', 'ꆪ'], ['ꊰ', 'ꆪ'], ['ꋍ', 'ꆪ'], ['ꌕ', 'ꆪ'], ['ꎸ', 'ꄑ'], ['ꏃ', 'ꆪ'], ['ꑍ', 'ꆪ'], ['ꑭ', 'ꆏ'], [' '], ['\''], ['+'], [','], ['-'], ['.'], ['/'], [':'], [';'], ['@'], ['['], [']'], ['z'], ['|'], ['ꃏ'], ['ꆪ'], ['ꇙ'], ['ꈎ'], ['ꑍ']] }

/-- internal/data/is.go: `is_Locale`. -/
def isLang : LangData := { isDict with
  relativeRegexes :=
   [(.seqs [.lit ['e', 'f', 't', 'i', 'r', ' '], .grp 1 (.number), .lit [' ', 'k', 'l', 'u', 'k', 'k', 'u', 's', 't', 'u', 'n', 'd', 'i', 'r']], [.lit ['i', 'n', ' '], .ref 1, .lit [' ', 'h', 'o', 'u', 'r']]),
    (.seqs [.lit ['f', 'y', 'r', 'i', 'r', ' '], .grp 1 (.number), .lit [' ', 'k', 'l', 'u', 'k', 'k', 'u', 's', 't', 'u', 'n', 'd', 'u', 'm']], [.ref 1, .lit [' ', 'h', 'o', 'u', 'r', ' ', 'a', 'g', 'o']]),
    (.seqs [.lit ['e', 'f', 't', 'i', 'r', ' '], .grp 1 (.number), .lit [' ', 'k', 'l', 'u', 'k', 'k', 'u', 's', 't', 'u', 'n', 'd']], [.lit ['i', 'n', ' '], .ref 1, .lit [' ', 'h', 'o', 'u', 'r']]),
    (.seqs [.lit ['f', 'y', 'r', 'i', 'r', ' '], .grp 1 (.number), .lit [' ', 'k', 'l', 'u', 'k', 'k', 'u', 's', 't', 'u', 'n', 'd']], [.ref 1, .lit [' ', 'h', 'o', 'u', 'r', ' ', 'a', 'g', 'o']]),
    (.seqs [.lit ['e', 'f', 't', 'i', 'r', ' '], .grp 1 (.number), .lit [' ', 's', 'e', 'k', 'u', 'n', 'd', 'u', 'r']], [.lit ['i', 'n', ' '], .ref 1, .lit [' ', 's', 'e', 'c', 'o', 'n', 'd']]),
    (.seqs [.lit ['f', 'y', 'r', 'i', 'r', ' '], .grp 1 (.number), .lit [' ', 's', 'e', 'k', 'u', 'n', 'd', 'u', 'm']], [.ref 1, .lit [' ', 's', 'e', 'c', 'o', 'n', 'd', ' ', 'a', 'g', 'o']]),
    (.seqs [.lit ['e', 'f', 't', 'i', 'r', ' '], .grp 1 (.number), .lit [' ', 'm', 'i', 'n', 'u', 't', 'u', 'r']], [.lit ['i', 'n', ' '], .ref 1, .lit [' ', 'm', 'i', 'n', 'u', 't', 'e']]),
    (.seqs [.lit ['e', 'f', 't', 'i', 'r', ' '], .grp 1 (.number), .lit [' ', 's', 'e', 'k', 'u', 'n', 'd', 'u']], [.lit ['i', 'n', ' '], .ref 1, .lit [' ', 's', 'e', 'c', 'o', 'n', 'd']]),
    (.seqs [.lit ['f', 'y', 'r', 'i', 'r', ' '], .grp 1 (.number), .lit [' ', 'm', 'a', 'n', 'u'], .cls false [.rng 'Ð' 'Ð', .rng 'ð' 'ð'], .lit ['u', 'm']], [.ref 1, .lit [' ', 'm', 'o', 'n', 't', 'h', ' ', 'a', 'g', 'o']]),
    (.seqs [.lit ['f', 'y', 'r', 'i', 'r', ' '], .grp 1 (.number), .lit [' ', 'm', 'i', 'n', 'u', 't', 'u', 'm']], [.ref 1, .lit [' ', 'm', 'i', 'n', 'u', 't', 'e', ' ', 'a', 'g', 'o']]),
    (.seqs [.lit ['f', 'y', 'r', 'i', 'r', ' '], .grp 1 (.number), .lit [' ', 's', 'e', 'k', 'u', 'n', 'd', 'u']], [.ref 1, .lit [' ', 's', 'e', 'c', 'o', 'n', 'd', ' ', 'a', 'g', 'o']]),
    (.seqs [.lit ['e', 'f', 't', 'i', 'r', ' '], .grp 1 (.number), .lit [' ', 'm', 'a', 'n', 'u'], .cls false [.rng 'Ð' 'Ð', .rng 'ð' 'ð'], .lit ['i']], [.lit ['i', 'n', ' '], .ref 1, .lit [' ', 'm', 'o', 'n', 't', 'h']]),
    (.seqs [.lit ['e', 'f', 't', 'i', 'r', ' '], .grp 1 (.number), .lit [' ', 'm', 'i', 'n', 'u', 't', 'u']], [.lit ['i', 'n', ' '], .ref 1, .lit [' ', 'm', 'i', 'n', 'u', 't', 'e']]),
    (.seqs [.lit ['f', 'y', 'r', 'i', 'r', ' '], .grp 1 (.number), .lit [' ', 'm', 'a', 'n', 'u'], .cls false [.rng 'Ð' 'Ð', .rng 'ð' 'ð'], .lit ['i']], [.ref 1, .lit [' ', 'm', 'o', 'n', 't', 'h', ' ', 'a', 'g', 'o']]),
    (.seqs [.lit ['f', 'y', 'r', 'i', 'r', ' '], .grp 1 (.number), .lit [' ', 'm', 'i', 'n', 'u', 't', 'u']], [.ref 1, .lit [' ', 'm', 'i', 'n', 'u', 't', 'e', ' ', 'a', 'g', 'o']]),
    (.seqs [.lit ['e', 'f', 't', 'i', 'r', ' '], .grp 1 (.number), .lit [' ', 'm', 'a', 'n', 'u'], .cls false [.rng 'Ð' 'Ð', .rng 'ð' 'ð']], [.lit ['i', 'n', ' '], .ref 1, .lit [' ', 'm', 'o', 'n', 't', 'h']]),
    (.seqs [.lit ['e', 'f', 't', 'i', 'r', ' '], .grp 1 (.number), .lit [' ', 'v', 'i', 'k', 'u', 'r']], [.lit ['i', 'n', ' '], .ref 1, .lit [' ', 'w', 'e', 'e', 'k']]),
    (.seqs [.lit ['f', 'y', 'r', 'i', 'r', ' '], .grp 1 (.number), .lit [' ', 'd', 'o', 'g', 'u', 'm']], [.ref 1, .lit [' ', 'd', 'a', 'y', ' ', 'a', 'g', 'o']]),
    (.seqs [.lit ['f', 'y', 'r', 'i', 'r', ' '], .grp 1 (.number), .lit [' ', 'v', 'i', 'k', 'u', 'm']], [.ref 1, .lit [' ', 'w', 'e', 'e', 'k', ' ', 'a', 'g', 'o']]),
    (.seqs [.lit ['e', 'f', 't', 'i', 'r', ' '], .grp 1 (.number), .lit [' ', 'd', 'a', 'g', 'a']], [.lit ['i', 'n', ' '], .ref 1, .lit [' ', 'd', 'a', 'y']]),
    (.seqs [.lit ['e', 'f', 't', 'i', 'r', ' '], .grp 1 (.number), .lit [' ', 'k', 'l', 's', 't']], [.lit ['i', 'n', ' '], .ref 1, .lit [' ', 'h', 'o', 'u', 'r']]),
    (.seqs [.lit ['e', 'f', 't', 'i', 'r', ' '], .grp 1 (.number), .lit [' ', 'v', 'i', 'k', 'u']], [.lit ['i', 'n', ' '], .ref 1, .lit [' ', 'w', 'e', 'e', 'k']]),
    (.seqs [.lit ['f', 'y', 'r', 'i', 'r', ' '], .grp 1 (.number), .lit [' ', 'a', 'r', 'u', 'm']], [.ref 1, .lit [' ', 'y', 'e', 'a', 'r', ' ', 'a', 'g', 'o']]),
    (.seqs [.lit ['f', 'y', 'r', 'i', 'r', ' '], .grp 1 (.number), .lit [' ', 'd', 'e', 'g', 'i']], [.ref 1, .lit [' ', 'd', 'a', 'y', ' ', 'a', 'g', 'o']]),
    (.seqs [.lit ['f', 'y', 'r', 'i', 'r', ' '], .grp 1 (.number), .lit [' ', 'k', 'l', 's', 't']], [.ref 1, .lit [' ', 'h', 'o', 'u', 'r', ' ', 'a', 'g', 'o']]),
    (.seqs [.lit ['f', 'y', 'r', 'i', 'r', ' '], .grp 1 (.number), .lit [' ', 'v', 'i', 'k', 'u']], [.ref 1, .lit [' ', 'w', 'e', 'e', 'k', ' ', 'a', 'g', 'o']]),
    (.seqs [.lit ['e', 'f', 't', 'i', 'r', ' '], .grp 1 (.number), .lit [' ', 'd', 'a', 'g']], [.lit ['i', 'n', ' '], .ref 1, .lit [' ', 'd', 'a', 'y']]),
    (.seqs [.lit ['e', 'f', 't', 'i', 'r', ' '], .grp 1 (.number), .lit [' ', 'm', 'a', 'n']], [.lit ['i', 'n', ' '], .ref 1, .lit [' ', 'm', 'o', 'n', 't', 'h']]),
    (.seqs [.lit ['e', 'f', 't', 'i', 'r', ' '], .grp 1 (.number), .lit [' ', 'm', 'i', 'n']], [.lit ['i', 'n', ' '], .ref 1, .lit [' ', 'm', 'i', 'n', 'u', 't', 'e']]),
    (.seqs [.lit ['e', 'f', 't', 'i', 'r', ' '], .grp 1 (.number), .lit [' ', 's', 'e', 'k']], [.lit ['i', 'n', ' '], .ref 1, .lit [' ', 's', 'e', 'c', 'o', 'n', 'd']]),
    (.seqs [.lit ['f', 'y', 'r', 'i', 'r', ' '], .grp 1 (.number), .lit [' ', 'a', 'r', 'i']], [.ref 1, .lit [' ', 'y', 'e', 'a', 'r', ' ', 'a', 'g', 'o']]),
    (.seqs [.lit ['f', 'y', 'r', 'i', 'r', ' '], .grp 1 (.number), .lit [' ', 'm', 'a', 'n']], [.ref 1, .lit [' ', 'm', 'o', 'n', 't', 'h', ' ', 'a', 'g', 'o']]),
    (.seqs [.lit ['f', 'y', 'r', 'i', 'r', ' '], .grp 1 (.number), .lit [' ', 'm', 'i', 'n']], [.ref 1, .lit [' ', 'm', 'i', 'n', 'u', 't', 'e', ' ', 'a', 'g', 'o']]),
    (.seqs [.lit ['f', 'y', 'r', 'i', 'r', ' '], .grp 1 (.number), .lit [' ', 's', 'e', 'k']], [.ref 1, .lit [' ', 's', 'e', 'c', 'o', 'n', 'd', ' ', 'a', 'g', 'o']]),
    (.seqs [.lit ['e', 'f', 't', 'i', 'r', ' '], .grp 1 (.number), .lit [' ', 'a', 'r']], [.lit ['i', 'n', ' '], .ref 1, .lit [' ', 'y', 'e', 'a', 'r']])],
  rxCombined := some (.seqs [.grp 1 (.alts [.bos, .cls true [.letter, .mark, .digit], .lit ['_']]), .grp 2 (.alts [.seqs [.lit ['e', 'f', 't', 'i', 'r', ' '], .number, .lit [' ', 'k', 'l', 'u', 'k', 'k', 'u', 's', 't', 'u', 'n', 'd', 'i', 'r']], .seqs [.lit ['f', 'y', 'r', 'i', 'r', ' '], .number, .lit [' ', 'k', 'l', 'u', 'k', 'k', 'u', 's', 't', 'u', 'n', 'd', 'u', 'm']], .seqs [.lit ['e', 'f', 't', 'i', 'r', ' '], .number, .lit [' ', 'k', 'l', 'u', 'k', 'k', 'u', 's', 't', 'u', 'n', 'd']], .seqs [.lit ['f', 'y', 'r', 'i', 'r', ' '], .number, .lit [' ', 'k', 'l', 'u', 'k', 'k', 'u', 's', 't', 'u', 'n', 'd']], .seqs [.lit ['e', 'f', 't', 'i', 'r', ' '], .number, .lit [' ', 's', 'e', 'k', 'u', 'n', 'd', 'u', 'r']], .seqs [.lit ['f', 'y', 'r', 'i', 'r', ' '], .number, .lit [' ', 's', 'e', 'k', 'u', 'n', 'd', 'u', 'm']], .seqs [.lit ['e', 'f', 't', 'i', 'r', ' '], .number, .lit [' ', 'm', 'i', 'n', 'u', 't', 'u', 'r']], .seqs [.lit ['e', 'f', 't', 'i', 'r', ' '], .number, .lit [' ', 's', 'e', 'k', 'u', 'n', 'd', 'u']], .seqs [.lit ['f', 'y', 'r', 'i', 'r', ' '], .number, .lit [' ', 'm', 'a', 'n', 'u'], .cls false [.rng 'Ð' 'Ð', .rng 'ð' 'ð'], .lit ['u', 'm']], .seqs [.lit ['f', 'y', 'r', 'i', 'r', ' '], .number, .lit [' ', 'm', 'i', 'n', 'u', 't', 'u', 'm']], .seqs [.lit ['f', 'y', 'r', 'i', 'r', ' '], .number, .lit [' ', 's', 'e', 'k', 'u', 'n', 'd', 'u']], .seqs [.lit ['e', 'f', 't', 'i', 'r', ' '], .number, .lit [' ', 'm', 'a', 'n', 'u'], .cls false [.rng 'Ð' 'Ð', .rng 'ð' 'ð'], .lit ['i']], .seqs [.lit ['e', 'f', 't', 'i', 'r', ' '], .number, .lit [' ', 'm', 'i', 'n', 'u', 't', 'u']], .seqs [.lit ['f', 'y', 'r', 'i', 'r', ' '], .number, .lit [' ', 'm', 'a', 'n', 'u'], .cls false [.rng 'Ð' 'Ð', .rng 'ð' 'ð'], .lit ['i']], .seqs [.lit ['f', 'y', 'r', 'i', 'r', ' '], .number, .lit [' ', 'm', 'i', 'n', 'u', 't', 'u']], .seqs [.lit ['e', 'f', 't', 'i', 'r', ' '], .number, .lit [' ', 'm', 'a', 'n', 'u'], .cls false [.rng 'Ð' 'Ð', .rng 'ð' 'ð']], .seqs [.lit ['e', 'f', 't', 'i', 'r', ' '], .number, .lit [' ', 'v', 'i', 'k', 'u', 'r']], .seqs [.lit ['f', 'y', 'r', 'i', 'r', ' '], .number, .lit [' ', 'd', 'o', 'g', 'u', 'm']], .seqs [.lit ['f', 'y', 'r', 'i', 'r', ' '], .number, .lit [' ', 'v', 'i', 'k', 'u', 'm']], .seqs [.lit ['e', 'f', 't', 'i', 'r', ' '], .number, .lit [' ', 'd', 'a', 'g', 'a']], .seqs [.lit ['e', 'f', 't', 'i', 'r', ' '], .number, .lit [' ', 'k', 'l', 's', 't']], .seqs [.lit ['e', 'f', 't', 'i', 'r', ' '], .number, .lit [' ', 'v', 'i', 'k', 'u']], .seqs [.lit ['f', 'y', 'r', 'i', 'r', ' '], .number, .lit [' ', 'a', 'r', 'u', 'm']], .seqs [.lit ['f', 'y', 'r', 'i', 'r', ' '], .number, .lit [' ', 'd', 'e', 'g', 'i']], .seqs [.lit ['f', 'y', 'r', 'i', 'r', ' '], .number, .lit [' ', 'k', 'l', 's', 't']], .seqs [.lit ['f', 'y', 'r', 'i', 'r', ' '], .number, .lit [' ', 'v', 'i', 'k', 'u']], .seqs [.lit ['e', 'f', 't', 'i', 'r', ' '], .number, .lit [' ', 'd', 'a', 'g']], .seqs [.lit ['e', 'f', 't', 'i', 'r', ' '], .number, .lit [' ', 'm', 'a', 'n']], .seqs [.lit ['e', 'f', 't', 'i', 'r', ' '], .number, .lit [' ', 'm', 'i', 'n']], .seqs [.lit ['e', 'f', 't', 'i', 'r', ' '], .number, .lit [' ', 's', 'e', 'k']], .seqs [.lit ['f', 'y', 'r', 'i', 'r', ' '], .number, .lit [' ', 'a', 'r', 'i']], .seqs [.lit ['f', 'y', 'r', 'i', 'r', ' '], .number, .lit [' ', 'm', 'a', 'n']], .seqs [.lit ['f', 'y', 'r', 'i', 'r', ' '], .number, .lit [' ', 'm', 'i', 'n']], .seqs [.lit ['f', 'y', 'r', 'i', 'r', ' '], .number, .lit [' ', 's', 'e', 'k']], .seqs [.lit ['e', 'f', 't', 'i', 'r', ' '], .number, .lit [' ', 'a', 'r']]]), .grp 3 (.alts [.eos, .cls true [.letter, .mark, .digit], .lit ['_']])], 3),
  rxExact := some (.seqs [.bos, .grp 1 (.alts [.seqs [.lit ['e', 'f', 't', 'i', 'r', ' '], .number, .lit [' ', 'k', 'l', 'u', 'k', 'k', 'u', 's', 't', 'u', 'n', 'd', 'i', 'r']], .seqs [.lit ['f', 'y', 'r', 'i', 'r', ' '], .number, .lit [' ', 'k', 'l', 'u', 'k', 'k', 'u', 's', 't', 'u', 'n', 'd', 'u', 'm']], .seqs [.lit ['e', 'f', 't', 'i', 'r', ' '], .number, .lit [' ', 'k', 'l', 'u', 'k', 'k', 'u', 's', 't', 'u', 'n', 'd']], .seqs [.lit ['f', 'y', 'r', 'i', 'r', ' '], .number, .lit [' ', 'k', 'l', 'u', 'k', 'k', 'u', 's', 't', 'u', 'n', 'd']], .seqs [.lit ['e', 'f', 't', 'i', 'r', ' '], .number, .lit [' ', 's', 'e', 'k', 'u', 'n', 'd', 'u', 'r']], .seqs [.lit ['f', 'y', 'r', 'i', 'r', ' '], .number, .lit [' ', 's', 'e', 'k', 'u', 'n', 'd', 'u', 'm']], .seqs [.lit ['e', 'f', 't', 'i', 'r', ' '], .number, .lit [' ', 'm', 'i', 'n', 'u', 't', 'u', 'r']], .seqs [.lit ['e', 'f', 't', 'i', 'r', ' '], .number, .lit [' ', 's', 'e', 'k', 'u', 'n', 'd', 'u']], .seqs [.lit ['f', 'y', 'r', 'i', 'r', ' '], .number, .lit [' ', 'm', 'a', 'n', 'u'], .cls false [.rng 'Ð' 'Ð', .rng 'ð' 'ð'], .lit ['u', 'm']], .seqs [.lit ['f', 'y', 'r', 'i', 'r', ' '], .number, .lit [' ', 'm', 'i', 'n', 'u', 't', 'u', 'm']], .seqs [.lit ['f', 'y', 'r', 'i', 'r', ' '], .number, .lit [' ', 's', 'e', 'k', 'u', 'n', 'd', 'u']], .seqs [.lit ['e', 'f', 't', 'i', 'r', ' '], .number, .lit [' ', 'm', 'a', 'n', 'u'], .cls false [.rng 'Ð' 'Ð', .rng 'ð' 'ð'], .lit ['i']], .seqs [.lit ['e', 'f', 't', 'i', 'r', ' '], .number, .lit [' ', 'm', 'i', 'n', 'u', 't', 'u']], .seqs [.lit ['f', 'y', 'r', 'i', 'r', ' '], .number, .lit [' ', 'm', 'a', 'n', 'u'], .cls false [.rng 'Ð' 'Ð', .rng 'ð' 'ð'], .lit ['i']], .seqs [.lit ['f', 'y', 'r', 'i', 'r', ' '], .number, .lit [' ', 'm', 'i', 'n', 'u', 't', 'u']], .seqs [.lit ['e', 'f', 't', 'i', 'r', ' '], .number, .lit [' ', 'm', 'a', 'n', 'u'], .cls false [.rng 'Ð' 'Ð', .rng 'ð' 'ð']], .seqs [.lit ['e', 'f', 't', 'i', 'r', ' '], .number, .lit [' ', 'v', 'i', 'k', 'u', 'r']], .seqs [.lit ['f', 'y', 'r', 'i', 'r', ' '], .number, .lit [' ', 'd', 'o', 'g', 'u', 'm']], .seqs [.lit ['f', 'y', 'r', 'i', 'r', ' '], .number, .lit [' ', 'v', 'i', 'k', 'u', 'm']], .seqs [.lit ['e', 'f', 't', 'i', 'r', ' '], .number, .lit [' ', 'd', 'a', 'g', 'a']], .seqs [.lit ['e', 'f', 't', 'i', 'r', ' '], .number, .lit [' ', 'k', 'l', 's', 't']], .seqs [.lit ['e', 'f', 't', 'i', 'r', ' '], .number, .lit [' ', 'v', 'i', 'k', 'u']], .seqs [.lit ['f', 'y', 'r', 'i', 'r', ' '], .number, .lit [' ', 'a', 'r', 'u', 'm']], .seqs [.lit ['f', 'y', 'r', 'i', 'r', ' '], .number, .lit [' ', 'd', 'e', 'g', 'i']], .seqs [.lit ['f', 'y', 'r', 'i', 'r', ' '], .number, .lit [' ', 'k', 'l', 's', 't']], .seqs [.lit ['f', 'y', 'r', 'i', 'r', ' '], .number, .lit [' ', 'v', 'i', 'k', 'u']], .seqs [.lit ['e', 'f', 't', 'i', 'r', ' '], .number, .lit [' ', 'd', 'a', 'g']], .seqs [.lit ['e', 'f', 't', 'i', 'r', ' '], .number, .lit [' ', 'm', 'a', 'n']], .seqs [.lit ['e', 'f', 't', 'i', 'r', ' '], .number, .lit [' ', 'm', 'i', 'n']], .seqs [.lit ['e', 'f', 't', 'i', 'r', ' '], .number, .lit [' ', 's', 'e', 'k']], .seqs [.lit ['f', 'y', 'r', 'i', 'r', ' '], .number, .lit [' ', 'a', 'r', 'i']], .seqs [.lit ['f', 'y', 'r', 'i', 'r', ' '], .number, .lit [' ', 'm', 'a', 'n']], .seqs [.lit ['f', 'y', 'r', 'i', 'r', ' '], .number, .lit [' ', 'm', 'i', 'n']], .seqs [.lit ['f', 'y', 'r', 'i', 'r', ' '], .number, .lit [' ', 's', 'e', 'k']], .seqs [.lit ['e', 'f', 't', 'i', 'r', ' '], .number, .lit [' ', 'a', 'r']]]), .eos]),
  knownWords :=
   [['i', ' ', 's', 'i', 'ð', 'a', 's', 't', 'a', ' ', 'm', 'a', 'n', 'u', 'ð', 'i'], ['i', ' ', 'þ', 'e', 's', 's', 'u', 'm', ' ', 'm', 'a', 'n', 'u', 'ð', 'i'], ['i', ' ', 'n', 'æ', 's', 't', 'a', ' ', 'm', 'a', 'n', 'u', 'ð', 'i'], ['i', ' ', 's', 'i', 'ð', 'u', 's', 't', 'u', ' ', 'v', 'i', 'k', 'u'], ['i', ' ', 'þ', 'e', 's', 's', 'a', 'r', 'i', ' ', 'v', 'i', 'k', 'u'], ['a', ' ', 's', 'i', 'ð', 'a', 's', 't', 'a', ' ', 'a', 'r', 'i'], ['i', ' ', 's', 'i', 'ð', 'a', 's', 't', 'a', ' ', 'm', 'a', 'n'], ['i', ' ', 'n', 'æ', 's', 't', 'u', ' ', 'v', 'i', 'k', 'u'], ['i', ' ', 'þ', 'e', 's', 's', 'u', 'm', ' ', 'm', 'a', 'n'], ['m', 'i', 'ð', 'v', 'i', 'k', 'u', 'd', 'a', 'g', 'u', 'r'], ['a', ' ', 'n', 'æ', 's', 't', 'a', ' ', 'a', 'r', 'i'], ['a', ' ', 'þ', 'e', 's', 's', 'u', ' ', 'a', 'r', 'i'], ['f', 'i', 'm', 'm', 't', 'u', 'd', 'a', 'g', 'u', 'r'], ['i', ' ', 'n', 'æ', 's', 't', 'a', ' ', 'm', 'a', 'n'], ['k', 'l', 'u', 'k', 'k', 'u', 's', 't', 'u', 'n', 'd'], ['l', 'a', 'u', 'g', 'a', 'r', 'd', 'a', 'g', 'u', 'r'], ['t', 'h', 'i', 's', ' ', 'm', 'i', 'n', 'u', 't', 'e'], ['þ', 'r', 'i', 'ð', 'j', 'u', 'd', 'a', 'g', 'u', 'r'], ['f', 'o', 's', 't', 'u', 'd', 'a', 'g', 'u', 'r'], ['s', 'u', 'n', 'n', 'u', 'd', 'a', 'g', 'u', 'r'], ['m', 'a', 'n', 'u', 'd', 'a', 'g', 'u', 'r'], ['s', 'e', 'p', 't', 'e', 'm', 'b', 'e', 'r'], ['t', 'h', 'i', 's', ' ', 'h', 'o', 'u', 'r'], ['a', ' ', 'm', 'o', 'r', 'g', 'u', 'n'], ['d', 'e', 's', 'e', 'm', 'b', 'e', 'r'], ['n', 'o', 'v', 'e', 'm', 'b', 'e', 'r'], ['f', 'e', 'b', 'r', 'u', 'a', 'r'], ['m', 'a', 'n', 'u', 'ð', 'u', 'r'], ['o', 'k', 't', 'o', 'b', 'e', 'r'], ['s', 'e', 'k', 'u', 'n', 'd', 'a'], ['j', 'a', 'n', 'u', 'a', 'r'], ['m', 'i', 'n', 'u', 't', 'a'], ['a', 'g', 'u', 's', 't'], ['a', 'p', 'r', 'i', 'l'], ['d', 'a', 'g', 'u', 'r'], ['i', ' ', 'd', 'a', 'g'], ['i', ' ', 'g', 'æ', 'r'], ['j', 'u', 'l', 'i'], ['j', 'u', 'n', 'i'], ['k', 'l', 's', 't'], ['m', 'a', 'r', 's'], ['n', 'u', 'n', 'a'], ['v', 'i', 'k', 'a'], ['a', 'g', 'u'], ['a', 'p', 'r'], ['d', 'e', 's'], ['f', 'e', 'b'], ['f', 'i', 'm'], ['f', 'o', 's'], ['g', 'm', 't'], ['j', 'a', 'n'], ['j', 'u', 'l'], ['j', 'u', 'n'], ['l', 'a', 'u'], ['m', 'a', 'i'], ['m', 'a', 'n'], ['m', 'a', 'r'], ['m', 'i', 'n'], ['m', 'i', 'ð'], ['n', 'o', 'v'], ['o', 'k', 't'], ['s', 'e', 'k'], ['s', 'e', 'p'], ['s', 'u', 'n'], ['u', 't', 'c'], ['þ', 'r', 'i'], ['a', 'm'], ['a', 'r'], ['e', 'h'], ['f', 'h'], ['p', 'm'], [' '], ['\''], ['+'], [','], ['-'], ['.'], ['/'], [':'], [';'], ['@'], ['['], [']'], ['d'], ['v'], ['z'], ['|']] }

/-- internal/data/it.go: `it_Locale`. -/
def itLang : LangData := { itDict with
  simplifications :=
   [(.seqs [.grp 1 (.alts [.bos, .noWord]), .grp 2 (.number), .plus (.cls false [.space]), .lit ['o', 'r', 'a'], .grp 3 (.alts [.eos, .noWord])], [.ref 1, .ref 2, .lit [' ', 'o', 'r', 'e'], .ref 3])],
  relativeRegexes :=
   [(.seqs [.lit ['t', 'r', 'a', ' '], .grp 1 (.number), .lit [' ', 's', 'e', 't', 't', 'i', 'm', 'a', 'n', 'a']], [.lit ['i', 'n', ' '], .ref 1, .lit [' ', 'w', 'e', 'e', 'k']]),
    (.seqs [.lit ['t', 'r', 'a', ' '], .grp 1 (.number), .lit [' ', 's', 'e', 't', 't', 'i', 'm', 'a', 'n', 'e']], [.lit ['i', 'n', ' '], .ref 1, .lit [' ', 'w', 'e', 'e', 'k']]),
    (.seqs [.grp 1 (.number), .lit [' ', 's', 'e', 't', 't', 'i', 'm', 'a', 'n', 'a', ' ', 'f', 'a']], [.ref 1, .lit [' ', 'w', 'e', 'e', 'k', ' ', 'a', 'g', 'o']]),
    (.seqs [.grp 1 (.number), .lit [' ', 's', 'e', 't', 't', 'i', 'm', 'a', 'n', 'e', ' ', 'f', 'a']], [.ref 1, .lit [' ', 'w', 'e', 'e', 'k', ' ', 'a', 'g', 'o']]),
    (.seqs [.lit ['t', 'r', 'a', ' '], .grp 1 (.number), .lit [' ', 's', 'e', 'c', 'o', 'n', 'd', 'i']], [.lit ['i', 'n', ' '], .ref 1, .lit [' ', 's', 'e', 'c', 'o', 'n', 'd']]),
    (.seqs [.lit ['t', 'r', 'a', ' '], .grp 1 (.number), .lit [' ', 's', 'e', 'c', 'o', 'n', 'd', 'o']], [.lit ['i', 'n', ' '], .ref 1, .lit [' ', 's', 'e', 'c', 'o', 'n', 'd']]),
    (.seqs [.grp 1 (.number), .lit [' ', 's', 'e', 'c', 'o', 'n', 'd', 'i', ' ', 'f', 'a']], [.ref 1, .lit [' ', 's', 'e', 'c', 'o', 'n', 'd', ' ', 'a', 'g', 'o']]),
    (.seqs [.grp 1 (.number), .lit [' ', 's', 'e', 'c', 'o', 'n', 'd', 'o', ' ', 'f', 'a']], [.ref 1, .lit [' ', 's', 'e', 'c', 'o', 'n', 'd', ' ', 'a', 'g', 'o']]),
    (.seqs [.lit ['t', 'r', 'a', ' '], .grp 1 (.number), .lit [' ', 'g', 'i', 'o', 'r', 'n', 'i']], [.lit ['i', 'n', ' '], .ref 1, .lit [' ', 'd', 'a', 'y']]),
    (.seqs [.lit ['t', 'r', 'a', ' '], .grp 1 (.number), .lit [' ', 'g', 'i', 'o', 'r', 'n', 'o']], [.lit ['i', 'n', ' '], .ref 1, .lit [' ', 'd', 'a', 'y']]),
    (.seqs [.lit ['t', 'r', 'a', ' '], .grp 1 (.number), .lit [' ', 'm', 'i', 'n', 'u', 't', 'i']], [.lit ['i', 'n', ' '], .ref 1, .lit [' ', 'm', 'i', 'n', 'u', 't', 'e']]),
    (.seqs [.lit ['t', 'r', 'a', ' '], .grp 1 (.number), .lit [' ', 'm', 'i', 'n', 'u', 't', 'o']], [.lit ['i', 'n', ' '], .ref 1, .lit [' ', 'm', 'i', 'n', 'u', 't', 'e']]),
    (.seqs [.grp 1 (.number), .lit [' ', 'g', 'i', 'o', 'r', 'n', 'i', ' ', 'f', 'a']], [.ref 1, .lit [' ', 'd', 'a', 'y', ' ', 'a', 'g', 'o']]),
    (.seqs [.grp 1 (.number), .lit [' ', 'g', 'i', 'o', 'r', 'n', 'o', ' ', 'f', 'a']], [.ref 1, .lit [' ', 'd', 'a', 'y', ' ', 'a', 'g', 'o']]),
    (.seqs [.grp 1 (.number), .lit [' ', 'm', 'i', 'n', 'u', 't', 'i', ' ', 'f', 'a']], [.ref 1, .lit [' ', 'm', 'i', 'n', 'u', 't', 'e', ' ', 'a', 'g', 'o']]),
    (.seqs [.grp 1 (.number), .lit [' ', 'm', 'i', 'n', 'u', 't', 'o', ' ', 'f', 'a']], [.ref 1, .lit [' ', 'm', 'i', 'n', 'u', 't', 'e', ' ', 'a', 'g', 'o']]),
    (.seqs [.lit ['t', 'r', 'a', ' '], .grp 1 (.number), .lit [' ', 'a', 'n', 'n', 'i']], [.lit ['i', 'n', ' '], .ref 1, .lit [' ', 'y', 'e', 'a', 'r']]),
    (.seqs [.lit ['t', 'r', 'a', ' '], .grp 1 (.number), .lit [' ', 'a', 'n', 'n', 'o']], [.lit ['i', 'n', ' '], .ref 1, .lit [' ', 'y', 'e', 'a', 'r']]),
    (.seqs [.lit ['t', 'r', 'a', ' '], .grp 1 (.number), .lit [' ', 'm', 'e', 's', 'e']], [.lit ['i', 'n', ' '], .ref 1, .lit [' ', 'm', 'o', 'n', 't', 'h']]),
    (.seqs [.lit ['t', 'r', 'a', ' '], .grp 1 (.number), .lit [' ', 'm', 'e', 's', 'i']], [.lit ['i', 'n', ' '], .ref 1, .lit [' ', 'm', 'o', 'n', 't', 'h']]),
    (.seqs [.lit ['t', 'r', 'a', ' '], .grp 1 (.number), .lit [' ', 's', 'e', 't', 't']], [.lit ['i', 'n', ' '], .ref 1, .lit [' ', 'w', 'e', 'e', 'k']]),
    (.seqs [.grp 1 (.number), .lit [' ', 'a', 'n', 'n', 'i', ' ', 'f', 'a']], [.ref 1, .lit [' ', 'y', 'e', 'a', 'r', ' ', 'a', 'g', 'o']]),
    (.seqs [.grp 1 (.number), .lit [' ', 'a', 'n', 'n', 'o', ' ', 'f', 'a']], [.ref 1, .lit [' ', 'y', 'e', 'a', 'r', ' ', 'a', 'g', 'o']]),
    (.seqs [.grp 1 (.number), .lit [' ', 'm', 'e', 's', 'e', ' ', 'f', 'a']], [.ref 1, .lit [' ', 'm', 'o', 'n', 't', 'h', ' ', 'a', 'g', 'o']]),
    (.seqs [.grp 1 (.number), .lit [' ', 'm', 'e', 's', 'i', ' ', 'f', 'a']], [.ref 1, .lit [' ', 'm', 'o', 'n', 't', 'h', ' ', 'a', 'g', 'o']]),
    (.seqs [.grp 1 (.number), .lit [' ', 's', 'e', 't', 't', ' ', 'f', 'a']], [.ref 1, .lit [' ', 'w', 'e', 'e', 'k', ' ', 'a', 'g', 'o']]),
    (.seqs [.lit ['t', 'r', 'a', ' '], .grp 1 (.number), .lit [' ', 'm', 'i', 'n']], [.lit ['i', 'n', ' '], .ref 1, .lit [' ', 'm', 'i', 'n', 'u', 't', 'e']]),
    (.seqs [.lit ['t', 'r', 'a', ' '], .grp 1 (.number), .lit [' ', 'o', 'r', 'a']], [.lit ['i', 'n', ' '], .ref 1, .lit [' ', 'h', 'o', 'u', 'r']]),
    (.seqs [.lit ['t', 'r', 'a', ' '], .grp 1 (.number), .lit [' ', 'o', 'r', 'e']], [.lit ['i', 'n', ' '], .ref 1, .lit [' ', 'h', 'o', 'u', 'r']]),
    (.seqs [.lit ['t', 'r', 'a', ' '], .grp 1 (.number), .lit [' ', 's', 'e', 'c']], [.lit ['i', 'n', ' '], .ref 1, .lit [' ', 's', 'e', 'c', 'o', 'n', 'd']]),
    (.seqs [.grp 1 (.number), .lit [' ', 'm', 'i', 'n', ' ', 'f', 'a']], [.ref 1, .lit [' ', 'm', 'i', 'n', 'u', 't', 'e', ' ', 'a', 'g', 'o']]),
    (.seqs [.grp 1 (.number), .lit [' ', 'o', 'r', 'a', ' ', 'f', 'a']], [.ref 1, .lit [' ', 'h', 'o', 'u', 'r', ' ', 'a', 'g', 'o']]),
    (.seqs [.grp 1 (.number), .lit [' ', 'o', 'r', 'e', ' ', 'f', 'a']], [.ref 1, .lit [' ', 'h', 'o', 'u', 'r', ' ', 'a', 'g', 'o']]),
    (.seqs [.grp 1 (.number), .lit [' ', 's', 'e', 'c', ' ', 'f', 'a']], [.ref 1, .lit [' ', 's', 'e', 'c', 'o', 'n', 'd', ' ', 'a', 'g', 'o']]),
    (.seqs [.lit ['t', 'r', 'a', ' '], .grp 1 (.number), .lit [' ', 'g', 'g']], [.lit ['i', 'n', ' '], .ref 1, .lit [' ', 'd', 'a', 'y']]),
    (.seqs [.grp 1 (.number), .lit [' ', 'g', 'g', ' ', 'f', 'a']], [.ref 1, .lit [' ', 'd', 'a', 'y', ' ', 'a', 'g', 'o']]),
    (.seqs [.lit ['t', 'r', 'a', ' '], .grp 1 (.number), .lit [' ', 'g']], [.lit ['i', 'n', ' '], .ref 1, .lit [' ', 'd', 'a', 'y']]),
    (.seqs [.lit ['t', 'r', 'a', ' '], .grp 1 (.number), .lit [' ', 'h']], [.lit ['i', 'n', ' '], .ref 1, .lit [' ', 'h', 'o', 'u', 'r']]),
    (.seqs [.lit ['t', 'r', 'a', ' '], .grp 1 (.number), .lit [' ', 's']], [.lit ['i', 'n', ' '], .ref 1, .lit [' ', 's', 'e', 'c', 'o', 'n', 'd']]),
    (.seqs [.grp 1 (.number), .lit [' ', 'g', ' ', 'f', 'a']], [.ref 1, .lit [' ', 'd', 'a', 'y', ' ', 'a', 'g', 'o']]),
    (.seqs [.grp 1 (.number), .lit [' ', 'h', ' ', 'f', 'a']], [.ref 1, .lit [' ', 'h', 'o', 'u', 'r', ' ', 'a', 'g', 'o']]),
    (.seqs [.grp 1 (.number), .lit [' ', 's', ' ', 'f', 'a']], [.ref 1, .lit [' ', 's', 'e', 'c', 'o', 'n', 'd', ' ', 'a', 'g', 'o']])],
  rxCombined := some (.seqs [.grp 1 (.alts [.bos, .cls true [.letter, .mark, .digit], .lit ['_']]), .grp 2 (.alts [.seqs [.lit ['t', 'r', 'a', ' '], .number, .lit [' ', 's', 'e', 't', 't', 'i', 'm', 'a', 'n', 'a']], .seqs [.lit ['t', 'r', 'a', ' '], .number, .lit [' ', 's', 'e', 't', 't', 'i', 'm', 'a', 'n', 'e']], .seqs [.number, .lit [' ', 's', 'e', 't', 't', 'i', 'm', 'a', 'n', 'a', ' ', 'f', 'a']], .seqs [.number, .lit [' ', 's', 'e', 't', 't', 'i', 'm', 'a', 'n', 'e', ' ', 'f', 'a']], .seqs [.lit ['t', 'r', 'a', ' '], .number, .lit [' ', 's', 'e', 'c', 'o', 'n', 'd', 'i']], .seqs [.lit ['t', 'r', 'a', ' '], .number, .lit [' ', 's', 'e', 'c', 'o', 'n', 'd', 'o']], .seqs [.number, .lit [' ', 's', 'e', 'c', 'o', 'n', 'd', 'i', ' ', 'f', 'a']], .seqs [.number, .lit [' ', 's', 'e', 'c', 'o', 'n', 'd', 'o', ' ', 'f', 'a']], .seqs [.lit ['t', 'r', 'a', ' '], .number, .lit [' ', 'g', 'i', 'o', 'r', 'n', 'i']], .seqs [.lit ['t', 'r', 'a', ' '], .number, .lit [' ', 'g', 'i', 'o', 'r', 'n', 'o']], .seqs [.lit ['t', 'r', 'a', ' '], .number, .lit [' ', 'm', 'i', 'n', 'u', 't', 'i']], .seqs [.lit ['t', 'r', 'a', ' '], .number, .lit [' ', 'm', 'i', 'n', 'u', 't', 'o']], .seqs [.number, .lit [' ', 'g', 'i', 'o', 'r', 'n', 'i', ' ', 'f', 'a']], .seqs [.number, .lit [' ', 'g', 'i', 'o', 'r', 'n', 'o', ' ', 'f', 'a']], .seqs [.number, .lit [' ', 'm', 'i', 'n', 'u', 't', 'i', ' ', 'f', 'a']], .seqs [.number, .lit [' ', 'm', 'i', 'n', 'u', 't', 'o', ' ', 'f', 'a']], .seqs [.lit ['t', 'r', 'a', ' '], .number, .lit [' ', 'a', 'n', 'n', 'i']], .seqs [.lit ['t', 'r', 'a', ' '], .number, .lit [' ', 'a', 'n', 'n', 'o']], .seqs [.lit ['t', 'r', 'a', ' '], .number, .lit [' ', 'm', 'e', 's', 'e']], .seqs [.lit ['t', 'r', 'a', ' '], .number, .lit [' ', 'm', 'e', 's', 'i']], .seqs [.lit ['t', 'r', 'a', ' '], .number, .lit [' ', 's', 'e', 't', 't']], .seqs [.number, .lit [' ', 'a', 'n', 'n', 'i', ' ', 'f', 'a']], .seqs [.number, .lit [' ', 'a', 'n', 'n', 'o', ' ', 'f', 'a']], .seqs [.number, .lit [' ', 'm', 'e', 's', 'e', ' ', 'f', 'a']], .seqs [.number, .lit [' ', 'm', 'e', 's', 'i', ' ', 'f', 'a']], .seqs [.number, .lit [' ', 's', 'e', 't', 't', ' ', 'f', 'a']], .seqs [.lit ['t', 'r', 'a', ' '], .number, .lit [' ', 'm', 'i', 'n']], .seqs [.lit ['t', 'r', 'a', ' '], .number, .lit [' ', 'o', 'r', 'a']], .seqs [.lit ['t', 'r', 'a', ' '], .number, .lit [' ', 'o', 'r', 'e']], .seqs [.lit ['t', 'r', 'a', ' '], .number, .lit [' ', 's', 'e', 'c']], .seqs [.number, .lit [' ', 'm', 'i', 'n', ' ', 'f', 'a']], .seqs [.number, .lit [' ', 'o', 'r', 'a', ' ', 'f', 'a']], .seqs [.number, .lit [' ', 'o', 'r', 'e', ' ', 'f', 'a']], .seqs [.number, .lit [' ', 's', 'e', 'c', ' ', 'f', 'a']], .seqs [.lit ['t', 'r', 'a', ' '], .number, .lit [' ', 'g', 'g']], .seqs [.number, .lit [' ', 'g', 'g', ' ', 'f', 'a']], .seqs [.lit ['t', 'r', 'a', ' '], .number, .lit [' ', 'g']], .seqs [.lit ['t', 'r', 'a', ' '], .number, .lit [' ', 'h']], .seqs [.lit ['t', 'r', 'a', ' '], .number, .lit [' ', 's']], .seqs [.number, .lit [' ', 'g', ' ', 'f', 'a']], .seqs [.number, .lit [' ', 'h', ' ', 'f', 'a']], .seqs [.number, .lit [' ', 's', ' ', 'f', 'a']]]), .grp 3 (.alts [.eos, .cls true [.letter, .mark, .digit], .lit ['_']])], 3),
  rxExact := some (.seqs [.bos, .grp 1 (.alts [.seqs [.lit ['t', 'r', 'a', ' '], .number, .lit [' ', 's', 'e', 't', 't', 'i', 'm', 'a', 'n', 'a']], .seqs [.lit ['t', 'r', 'a', ' '], .number, .lit [' ', 's', 'e', 't', 't', 'i', 'm', 'a', 'n', 'e']], .seqs [.number, .lit [' ', 's', 'e', 't', 't', 'i', 'm', 'a', 'n', 'a', ' ', 'f', 'a']], .seqs [.number, .lit [' ', 's', 'e', 't', 't', 'i', 'm', 'a', 'n', 'e', ' ', 'f', 'a']], .seqs [.lit ['t', 'r', 'a', ' '], .number, .lit [' ', 's', 'e', 'c', 'o', 'n', 'd', 'i']], .seqs [.lit ['t', 'r', 'a', ' '], .number, .lit [' ', 's', 'e', 'c', 'o', 'n', 'd', 'o']], .seqs [.number, .lit [' ', 's', 'e', 'c', 'o', 'n', 'd', 'i', ' ', 'f', 'a']], .seqs [.number, .lit [' ', 's', 'e', 'c', 'o', 'n', 'd', 'o', ' ', 'f', 'a']], .seqs [.lit ['t', 'r', 'a', ' '], .number, .lit [' ', 'g', 'i', 'o', 'r', 'n', 'i']], .seqs [.lit ['t', 'r', 'a', ' '], .number, .lit [' ', 'g', 'i', 'o', 'r', 'n', 'o']], .seqs [.lit ['t', 'r', 'a', ' '], .number, .lit [' ', 'm', 'i', 'n', 'u', 't', 'i']], .seqs [.lit ['t', 'r', 'a', ' '], .number, .lit [' ', 'm', 'i', 'n', 'u', 't', 'o']], .seqs [.number, .lit [' ', 'g', 'i', 'o', 'r', 'n', 'i', ' ', 'f', 'a']], .seqs [.number, .lit [' ', 'g', 'i', 'o', 'r', 'n', 'o', ' ', 'f', 'a']], .seqs [.number, .lit [' ', 'm', 'i', 'n', 'u', 't', 'i', ' ', 'f', 'a']], .seqs [.number, .lit [' ', 'm', 'i', 'n', 'u', 't', 'o', ' ', 'f', 'a']], .seqs [.lit ['t', 'r', 'a', ' '], .number, .lit [' ', 'a', 'n', 'n', 'i']], .seqs [.lit ['t', 'r', 'a', ' '], .number, .lit [' ', 'a', 'n', 'n', 'o']], .seqs [.lit ['t', 'r', 'a', ' '], .number, .lit [' ', 'm', 'e', 's', 'e']], .seqs [.lit ['t', 'r', 'a', ' '], .number, .lit [' ', 'm', 'e', 's', 'i']], .seqs [.lit ['t', 'r', 'a', ' '], .number, .lit [' ', 's', 'e', 't', 't']], .seqs [.number, .lit [' ', 'a', 'n', 'n', 'i', ' ', 'f', 'a']], .seqs [.number, .lit [' ', 'a', 'n', 'n', 'o', ' ', 'f', 'a']], .seqs [.number, .lit [' ', 'm', 'e', 's', 'e', ' ', 'f', 'a']], .seqs [.number, .lit [' ', 'm', 'e', 's', 'i', ' ', 'f', 'a']], .seqs [.number, .lit [' ', 's', 'e', 't', 't', ' ', 'f', 'a']], .seqs [.lit ['t', 'r', 'a', ' '], .number, .lit [' ', 'm', 'i', 'n']], .seqs [.lit ['t', 'r', 'a', ' '], .number, .lit [' ', 'o', 'r', 'a']], .seqs [.lit ['t', 'r', 'a', ' '], .number, .lit [' ', 'o', 'r', 'e']], .seqs [.lit ['t', 'r', 'a', ' '], .number, .lit [' ', 's', 'e', 'c']], .seqs [.number, .lit [' ', 'm', 'i', 'n', ' ', 'f', 'a']], .seqs [.number, .lit [' ', 'o', 'r', 'a', ' ', 'f', 'a']], .seqs [.number, .lit [' ', 'o', 'r', 'e', ' ', 'f', 'a']], .seqs [.number, .lit [' ', 's', 'e', 'c', ' ', 'f', 'a']], .seqs [.lit ['t', 'r', 'a', ' '], .number, .lit [' ', 'g', 'g']], .seqs [.number, .lit [' ', 'g', 'g', ' ', 'f', 'a']], .seqs [.lit ['t', 'r', 'a', ' '], .number, .lit [' ', 'g']], .seqs [.lit ['t', 'r', 'a', ' '], .number, .lit [' ', 'h']], .seqs [.lit ['t', 'r', 'a', ' '], .number, .lit [' ', 's']], .seqs [.number, .lit [' ', 'g', ' ', 'f', 'a']], .seqs [.number, .lit [' ', 'h', ' ', 'f', 'a']], .seqs [.number, .lit [' ', 's', ' ', 'f', 'a']]]), .eos]),
  knownWords :=
   [['s', 'e', 't', 't', 'i', 'm', 'a', 'n', 'a', ' ', 'p', 'r', 'o', 's', 's', 'i', 'm', 'a'], ['q', 'u', 'e', 's', 't', 'a', ' ', 's', 'e', 't', 't', 'i', 'm', 'a', 'n', 'a'], ['s', 'e', 't', 't', 'i', 'm', 'a', 'n', 'a', ' ', 's', 'c', 'o', 'r', 's', 'a'], ['a', 'n', 'n', 'o', ' ', 'p', 'r', 'o', 's', 's', 'i', 'm', 'o'], ['m', 'e', 's', 'e', ' ', 'p', 'r', 'o', 's', 's', 'i', 'm', 'o'], ['q', 'u', 'e', 's', 't', 'o', ' ', 'm', 'i', 'n', 'u', 't', 'o'], ['a', 'n', 'n', 'o', ' ', 's', 'c', 'o', 'r', 's', 'o'], ['m', 'e', 's', 'e', ' ', 's', 'c', 'o', 'r', 's', 'o'], ['q', 'u', 'e', 's', 't', 'o', ' ', 'm', 'e', 's', 'e'], ['a', 'l', 't', 'r', 'o', ' ', 'i', 'e', 'r', 'i'], ['q', 'u', 'e', 's', 't', '\'', 'a', 'n', 'n', 'o'], ['m', 'e', 'r', 'c', 'o', 'l', 'e', 'd', 'i'], ['q', 'u', 'e', 's', 't', '\'', 'o', 'r', 'a'], ['s', 'e', 't', 't', 'e', 'm', 'b', 'r', 'e'], ['s', 'e', 't', 't', 'i', 'm', 'a', 'n', 'a'], ['s', 'e', 't', 't', 'i', 'm', 'a', 'n', 'e'], ['d', 'i', 'c', 'e', 'm', 'b', 'r', 'e'], ['d', 'o', 'm', 'e', 'n', 'i', 'c', 'a'], ['f', 'e', 'b', 'b', 'r', 'a', 'i', 'o'], ['n', 'o', 'v', 'e', 'm', 'b', 'r', 'e'], ['g', 'e', 'n', 'n', 'a', 'i', 'o'], ['g', 'i', 'o', 'v', 'e', 'd', 'i'], ['m', 'a', 'r', 't', 'e', 'd', 'i'], ['o', 't', 't', 'o', 'b', 'r', 'e'], ['s', 'e', 'c', 'o', 'n', 'd', 'i'], ['s', 'e', 'c', 'o', 'n', 'd', 'o'], ['v', 'e', 'n', 'e', 'r', 'd', 'i'], ['a', 'g', 'o', 's', 't', 'o'], ['a', 'p', 'r', 'i', 'l', 'e'], ['d', 'o', 'm', 'a', 'n', 'i'], ['g', 'i', 'o', 'r', 'n', 'i'], ['g', 'i', 'o', 'r', 'n', 'o'], ['g', 'i', 'u', 'g', 'n', 'o'], ['l', 'u', 'g', 'l', 'i', 'o'], ['l', 'u', 'n', 'e', 'd', 'i'], ['m', 'a', 'g', 'g', 'i', 'o'], ['m', 'i', 'n', 'u', 't', 'i'], ['m', 'i', 'n', 'u', 't', 'o'], ['s', 'a', 'b', 'a', 't', 'o'], ['c', 'i', 'r', 'c', 'a'], ['m', 'a', 'r', 'z', 'o'], ['a', 'n', 'n', 'i'], ['a', 'n', 'n', 'o'], ['i', 'e', 'r', 'i'], ['m', 'e', 's', 'e'], ['m', 'e', 's', 'i'], ['o', 'g', 'g', 'i'], ['s', 'e', 't', 't'], ['a', 'g', 'o'], ['a', 'p', 'r'], ['d', 'i', 'c'], ['d', 'o', 'm'], ['f', 'e', 'b'], ['g', 'e', 'n'], ['g', 'i', 'o'], ['g', 'i', 'u'], ['g', 'm', 't'], ['l', 'u', 'g'], ['l', 'u', 'n'], ['m', 'a', 'g'], ['m', 'a', 'r'], ['m', 'e', 'r'], ['m', 'i', 'n'], ['n', 'o', 'v'], ['o', 'r', 'a'], ['o', 'r', 'e'], ['o', 't', 't'], ['s', 'a', 'b'], ['s', 'e', 'c'], ['s', 'e', 't'], ['u', 't', 'c'], ['v', 'e', 'n'], ['a', 'm'], ['f', 'a'], ['i', 'n'], ['p', 'm'], [' '], ['\''], ['+'], [','], ['-'], ['.'], ['/'], [':'], [';'], ['@'], ['['], [']'], ['e'], ['g'], ['h'], ['m'], ['s'], ['z'], ['|']] }

/-- internal/data/it.go: `it_CH_Locale`. -/
def it_CHLang : LangData := it_CHDict

/-- internal/data/it.go: `it_SM_Locale`. -/
def it_SMLang : LangData := it_SMDict

/-- internal/data/it.go: `it_VA_Locale`. -/
def it_VALang : LangData := it_VADict

/-- internal/data/ja.go: `ja_Locale`. -/
def jaLang : LangData := { jaDict with
  simplifications :=
   [(.seqs [.grp 1 (.number), .lit ['年'], .opt (.plus (.cls false [.space])), .grp 2 (.number), .lit ['月'], .opt (.plus (.cls false [.space])), .grp 3 (.number), .lit ['日']], [.ref 1, .lit ['-'], .ref 2, .lit ['-'], .ref 3]),
    (.seqs [.grp 1 (.number), .lit ['月'], .opt (.plus (.cls false [.space])), .grp 2 (.number), .lit ['日']], [.ref 1, .lit ['-'], .ref 2]),
    (.seqs [.grp 1 (.number), .lit ['時'], .opt (.plus (.cls false [.space])), .grp 2 (.number), .lit ['分'], .opt (.plus (.cls false [.space])), .grp 3 (.number), .lit ['秒']], [.ref 1, .lit [':'], .ref 2, .lit [':'], .ref 3]),
    (.seqs [.grp 1 (.number), .lit ['時'], .opt (.plus (.cls false [.space])), .grp 2 (.number), .lit ['分']], [.ref 1, .lit [':'], .ref 2]),
    (.seqs [.grp 1 (.number), .lit ['時'], .eos], [.ref 1, .lit [':', '0', '0']]),
    (.lit ['正', '午'], [.lit ['1', '2', ':', '0', '0']])],
  relativeRegexes :=
   [(.seqs [.grp 1 (.number), .lit [' ', 'か', '月', '前']], [.ref 1, .lit [' ', 'm', 'o', 'n', 't', 'h', ' ', 'a', 'g', 'o']]),
    (.seqs [.grp 1 (.number), .lit [' ', 'か', '月', '後']], [.lit ['i', 'n', ' '], .ref 1, .lit [' ', 'm', 'o', 'n', 't', 'h']]),
    (.seqs [.grp 1 (.number), .lit [' ', '時', '間', '前']], [.ref 1, .lit [' ', 'h', 'o', 'u', 'r', ' ', 'a', 'g', 'o']]),
    (.seqs [.grp 1 (.number), .lit [' ', '時', '間', '後']], [.lit ['i', 'n', ' '], .ref 1, .lit [' ', 'h', 'o', 'u', 'r']]),
    (.seqs [.grp 1 (.number), .lit [' ', '週', '間', '前']], [.ref 1, .lit [' ', 'w', 'e', 'e', 'k', ' ', 'a', 'g', 'o']]),
    (.seqs [.grp 1 (.number), .lit [' ', '週', '間', '後']], [.lit ['i', 'n', ' '], .ref 1, .lit [' ', 'w', 'e', 'e', 'k']]),
    (.seqs [.grp 1 (.number), .lit [' ', '分', '前']], [.ref 1, .lit [' ', 'm', 'i', 'n', 'u', 't', 'e', ' ', 'a', 'g', 'o']]),
    (.seqs [.grp 1 (.number), .lit [' ', '分', '後']], [.lit ['i', 'n', ' '], .ref 1, .lit [' ', 'm', 'i', 'n', 'u', 't', 'e']]),
    (.seqs [.grp 1 (.number), .lit [' ', '年', '前']], [.ref 1, .lit [' ', 'y', 'e', 'a', 'r', ' ', 'a', 'g', 'o']]),
    (.seqs [.grp 1 (.number), .lit [' ', '年', '後']], [.lit ['i', 'n', ' '], .ref 1, .lit [' ', 'y', 'e', 'a', 'r']]),
    (.seqs [.grp 1 (.number), .lit [' ', '日', '前']], [.ref 1, .lit [' ', 'd', 'a', 'y', ' ', 'a', 'g', 'o']]),
    (.seqs [.grp 1 (.number), .lit [' ', '日', '後']], [.lit ['i', 'n', ' '], .ref 1, .lit [' ', 'd', 'a', 'y']]),
    (.seqs [.grp 1 (.number), .lit [' ', '秒', '前']], [.ref 1, .lit [' ', 's', 'e', 'c', 'o', 'n', 'd', ' ', 'a', 'g', 'o']]),
    (.seqs [.grp 1 (.number), .lit [' ', '秒', '後']], [.lit ['i', 'n', ' '], .ref 1, .lit [' ', 's', 'e', 'c', 'o', 'n', 'd']]),
    (.seqs [.grp 1 (.number), .lit ['か', '月', '前']], [.ref 1, .lit [' ', 'm', 'o', 'n', 't', 'h', ' ', 'a', 'g', 'o']]),
    (.seqs [.grp 1 (.number), .lit ['か', '月', '後']], [.lit ['i', 'n', ' '], .ref 1, .lit [' ', 'm', 'o', 'n', 't', 'h']]),
    (.seqs [.grp 1 (.number), .lit ['時', '間', '前']], [.ref 1, .lit [' ', 'h', 'o', 'u', 'r', ' ', 'a', 'g', 'o']]),
    (.seqs [.grp 1 (.number), .lit ['時', '間', '後']], [.lit ['i', 'n', ' '], .ref 1, .lit [' ', 'h', 'o', 'u', 'r']]),
    (.seqs [.grp 1 (.number), .lit ['週', '間', '前']], [.ref 1, .lit [' ', 'w', 'e', 'e', 'k', ' ', 'a', 'g', 'o']]),
    (.seqs [.grp 1 (.number), .lit ['週', '間', '後']], [.lit ['i', 'n', ' '], .ref 1, .lit [' ', 'w', 'e', 'e', 'k']]),
    (.seqs [.grp 1 (.number), .lit ['分', '前']], [.ref 1, .lit [' ', 'm', 'i', 'n', 'u', 't', 'e', ' ', 'a', 'g', 'o']]),
    (.seqs [.grp 1 (.number), .lit ['分', '後']], [.lit ['i', 'n', ' '], .ref 1, .lit [' ', 'm', 'i', 'n', 'u', 't', 'e']]),
    (.seqs [.grp 1 (.number), .lit ['年', '前']], [.ref 1, .lit [' ', 'y', 'e', 'a', 'r', ' ', 'a', 'g', 'o']]),
    (.seqs [.grp 1 (.number), .lit ['年', '後']], [.lit ['i', 'n', ' '], .ref 1, .lit [' ', 'y', 'e', 'a', 'r']]),
    (.seqs [.grp 1 (.number), .lit ['日', '前']], [.ref 1, .lit [' ', 'd', 'a', 'y', ' ', 'a', 'g', 'o']]),
    (.seqs [.grp 1 (.number), .lit ['日', '後']], [.lit ['i', 'n', ' '], .ref 1, .lit [' ', 'd', 'a', 'y']]),
    (.seqs [.grp 1 (.number), .lit ['秒', '前']], [.ref 1, .lit [' ', 's', 'e', 'c', 'o', 'n', 'd', ' ', 'a', 'g', 'o']]),
    (.seqs [.grp 1 (.number), .lit ['秒', '後']], [.lit ['i', 'n', ' '], .ref 1, .lit [' ', 's', 'e', 'c', 'o', 'n', 'd']])],
  rxCombined := some (.grp 1 (.alts [.seqs [.number, .lit [' ', 'か', '月', '前']], .seqs [.number, .lit [' ', 'か', '月', '後']], .seqs [.number, .lit [' ', '時', '間', '前']], .seqs [.number, .lit [' ', '時', '間', '後']], .seqs [.number, .lit [' ', '週', '間', '前']], .seqs [.number, .lit [' ', '週', '間', '後']], .seqs [.number, .lit [' ', '分', '前']], .seqs [.number, .lit [' ', '分', '後']], .seqs [.number, .lit [' ', '年', '前']], .seqs [.number, .lit [' ', '年', '後']], .seqs [.number, .lit [' ', '日', '前']], .seqs [.number, .lit [' ', '日', '後']], .seqs [.number, .lit [' ', '秒', '前']], .seqs [.number, .lit [' ', '秒', '後']], .seqs [.number, .lit ['か', '月', '前']], .seqs [.number, .lit ['か', '月', '後']], .seqs [.number, .lit ['時', '間', '前']], .seqs [.number, .lit ['時', '間', '後']], .seqs [.number, .lit ['週', '間', '前']], .seqs [.number, .lit ['週', '間', '後']], .seqs [.number, .lit ['分', '前']], .seqs [.number, .lit ['分', '後']], .seqs [.number, .lit ['年', '前']], .seqs [.number, .lit ['年', '後']], .seqs [.number, .lit ['日', '前']], .seqs [.number, .lit ['日', '後']], .seqs [.number, .lit ['秒', '前']], .seqs [.number, .lit ['秒', '後']]]), 1),
  rxExact := some (.seqs [.bos, .grp 1 (.alts [.seqs [.number, .lit [' ', 'か', '月', '前']], .seqs [.number, .lit [' ', 'か', '月', '後']], .seqs [.number, .lit [' ', '時', '間', '前']], .seqs [.number, .lit [' ', '時', '間', '後']], .seqs [.number, .lit [' ', '週', '間', '前']], .seqs [.number, .lit [' ', '週', '間', '後']], .seqs [.number, .lit [' ', '分', '前']], .seqs [.number, .lit [' ', '分', '後']], .seqs [.number, .lit [' ', '年', '前']], .seqs [.number, .lit [' ', '年', '後']], .seqs [.number, .lit [' ', '日', '前']], .seqs [.number, .lit [' ', '日', '後']], .seqs [.number, .lit [' ', '秒', '前']], .seqs [.number, .lit [' ', '秒', '後']], .seqs [.number, .lit ['か', '月', '前']], .seqs [.number, .lit ['か', '月', '後']], .seqs [.number, .lit ['時', '間', '前']], .seqs [.number, .lit ['時', '間', '後']], .seqs [.number, .lit ['週', '間', '前']], .seqs [.number, .lit ['週', '間', '後']], .seqs [.number, .lit ['分', '前']], .seqs [.number, .lit ['分', '後']], .seqs [.number, .lit ['年', '前']], .seqs [.number, .lit ['年', '後']], .seqs [.number, .lit ['日', '前']], .seqs [.number, .lit ['日', '後']], .seqs [.number, .lit ['秒', '前']], .seqs [.number, .lit ['秒', '後']]]), .eos]),
  knownWords :=
   [['1', ' ', '時', '間', '以', '内'], ['1', ' ', '分', '以', '内'], ['(', '土', ')'], ['(', '日', ')'], ['(', '月', ')'], ['(', '木', ')'], ['(', '水', ')'], ['(', '火', ')'], ['(', '金', ')'], ['1', '0', '月'], ['1', '1', '月'], ['1', '2', '月'], ['g', 'm', 't'], ['u', 't', 'c'], ['一', '昨', '日'], ['今', 'か', 'ら'], ['先', '々', '週'], ['十', '一', '月'], ['十', '二', '月'], ['土', '曜', '日'], ['日', '曜', '日'], ['明', '後', '日'], ['月', '曜', '日'], ['木', '曜', '日'], ['水', '曜', '日'], ['火', '曜', '日'], ['金', '曜', '日'], ['1', '月'], ['2', '月'], ['3', '月'], ['4', '月'], ['5', '月'], ['6', '月'], ['7', '月'], ['8', '月'], ['9', '月'], ['a', 'm'], ['p', 'm'], ['か', '月'], ['カ', '月'], ['ヶ', '月'], ['一', '月'], ['七', '月'], ['三', '月'], ['九', '月'], ['二', '月'], ['五', '月'], ['今', '年'], ['今', '日'], ['今', '月'], ['今', '週'], ['先', '月'], ['先', '週'], ['八', '月'], ['六', '月'], ['分', '間'], ['十', '月'], ['午', '前'], ['午', '後'], ['去', '年'], ['四', '月'], ['日', '間'], ['明', '日'], ['昨', '年'], ['昨', '日'], ['時', '間'], ['現', '在'], ['秒', '間'], ['翌', '年'], ['翌', '月'], ['翌', '週'], ['週', '間'], [' '], ['\''], ['+'], [','], ['-'], ['.'], ['/'], [':'], [';'], ['@'], ['['], [']'], ['z'], ['|'], ['て'], ['の'], ['今'], ['分'], ['前'], ['土'], ['年'], ['日'], ['時'], ['月'], ['木'], ['水'], ['火'], ['秒'], ['約'], ['週'], ['金']] }

/-- internal/data/jgo.go: `jgo_Locale`. -/
def jgoLang : LangData := { jgoDict with
  relativeRegexes :=
   [(.seqs [.cls false [.rng 'Ɛ' 'Ɛ', .rng 'ɛ' 'ɛ'], .lit [' ', 'g'], .cls false [.rng 'Ɛ' 'Ɛ', .rng 'ɛ' 'ɛ'], .lit [' ', 'm'], .cls false [.rng 'Ɔ' 'Ɔ', .rng 'ɔ' 'ɔ'], .lit [' '], .grp 1 (.number), .lit [' '], .cls false [.rng 'Ŋ' 'Ŋ', .rng 'ŋ' 'ŋ'], .lit ['g', 'a', 'p', '-', 'm', 'b', 'i']], [.ref 1, .lit [' ', 'w', 'e', 'e', 'k', ' ', 'a', 'g', 'o']]),
    (.seqs [.cls false [.rng 'Ɛ' 'Ɛ', .rng 'ɛ' 'ɛ'], .lit [' ', 'g'], .cls false [.rng 'Ɛ' 'Ɛ', .rng 'ɛ' 'ɛ'], .lit [' ', 'm'], .cls false [.rng 'Ɔ' 'Ɔ', .rng 'ɔ' 'ɔ'], .lit [' ', 'm', 'i', 'n', 'u', 't', ' '], .grp 1 (.number)], [.ref 1, .lit [' ', 'm', 'i', 'n', 'u', 't', 'e', ' ', 'a', 'g', 'o']]),
    (.seqs [.cls false [.rng 'Ɛ' 'Ɛ', .rng 'ɛ' 'ɛ'], .lit [' ', 'g'], .cls false [.rng 'Ɛ' 'Ɛ', .rng 'ɛ' 'ɛ'], .lit [' ', 'm'], .cls false [.rng 'Ɔ' 'Ɔ', .rng 'ɔ' 'ɔ'], .lit [' ', 'p'], .cls false [.rng 'Ɛ' 'Ɛ', .rng 'ɛ' 'ɛ'], .lit ['s', 'a'], .cls false [.rng 'Ŋ' 'Ŋ', .rng 'ŋ' 'ŋ'], .lit [' '], .grp 1 (.number)], [.ref 1, .lit [' ', 'm', 'o', 'n', 't', 'h', ' ', 'a', 'g', 'o']]),
    (.seqs [.lit ['n', 'u', 'u', ' '], .cls false [.rng 'Ŋ' 'Ŋ', .rng 'ŋ' 'ŋ'], .lit ['g', 'a', 'p', '-', 'm', 'b', 'i', ' '], .grp 1 (.number)], [.lit ['i', 'n', ' '], .ref 1, .lit [' ', 'w', 'e', 'e', 'k']]),
    (.seqs [.cls false [.rng 'Ɛ' 'Ɛ', .rng 'ɛ' 'ɛ'], .lit [' ', 'g'], .cls false [.rng 'Ɛ' 'Ɛ', .rng 'ɛ' 'ɛ'], .lit [' ', 'm'], .cls false [.rng 'Ɔ' 'Ɔ', .rng 'ɔ' 'ɔ'], .lit [' '], .grp 1 (.number), .lit [' ', 'h', 'a', 'w', 'a']], [.ref 1, .lit [' ', 'h', 'o', 'u', 'r', ' ', 'a', 'g', 'o']]),
    (.seqs [.cls false [.rng 'Ɛ' 'Ɛ', .rng 'ɛ' 'ɛ'], .lit [' ', 'g'], .cls false [.rng 'Ɛ' 'Ɛ', .rng 'ɛ' 'ɛ'], .lit [' ', 'm'], .cls false [.rng 'Ɔ' 'Ɔ', .rng 'ɔ' 'ɔ'], .lit [' ', 'l'], .cls false [.rng 'Ɛ' 'Ɛ', .rng 'ɛ' 'ɛ'], .cls false [.rng 'Ꞌ' 'Ꞌ', .rng 'ꞌ' 'ꞌ'], .lit [' '], .grp 1 (.number)], [.ref 1, .lit [' ', 'd', 'a', 'y', ' ', 'a', 'g', 'o']]),
    (.seqs [.cls false [.rng 'Ɛ' 'Ɛ', .rng 'ɛ' 'ɛ'], .lit ['g'], .cls false [.rng 'Ɛ' 'Ɛ', .rng 'ɛ' 'ɛ'], .lit [' ', 'm'], .cls false [.rng 'Ɔ' 'Ɔ', .rng 'ɔ' 'ɔ'], .lit [' '], .cls false [.rng 'Ŋ' 'Ŋ', .rng 'ŋ' 'ŋ'], .lit ['g', 'u'], .cls false [.rng 'Ꞌ' 'Ꞌ', .rng 'ꞌ' 'ꞌ'], .lit [' '], .grp 1 (.number)], [.ref 1, .lit [' ', 'y', 'e', 'a', 'r', ' ', 'a', 'g', 'o']]),
    (.seqs [.lit ['n', 'u', 'u', ' '], .grp 1 (.number), .lit [' ', 'm', 'i', 'n', 'u', 't']], [.lit ['i', 'n', ' '], .ref 1, .lit [' ', 'm', 'i', 'n', 'u', 't', 'e']]),
    (.seqs [.lit ['n', 'u', 'u', ' ', 'h', 'a', 'w', 'a', ' '], .grp 1 (.number)], [.lit ['i', 'n', ' '], .ref 1, .lit [' ', 'h', 'o', 'u', 'r']]),
    (.seqs [.lit ['n', 'u', 'u', ' '], .cls false [.rng 'Ŋ' 'Ŋ', .rng 'ŋ' 'ŋ'], .lit ['g', 'u'], .cls false [.rng 'Ꞌ' 'Ꞌ', .rng 'ꞌ' 'ꞌ'], .lit [' '], .grp 1 (.number)], [.lit ['i', 'n', ' '], .ref 1, .lit [' ', 'y', 'e', 'a', 'r']]),
    (.seqs [.lit ['n', 'u', 'u', ' '], .grp 1 (.number), .lit [' ', 's', 'a'], .cls false [.rng 'Ŋ' 'Ŋ', .rng 'ŋ' 'ŋ']], [.lit ['i', 'n', ' '], .ref 1, .lit [' ', 'm', 'o', 'n', 't', 'h']]),
    (.seqs [.lit ['n', 'u', 'u', ' ', 'l'], .cls false [.rng 'Ɛ' 'Ɛ', .rng 'ɛ' 'ɛ'], .cls false [.rng 'Ꞌ' 'Ꞌ', .rng 'ꞌ' 'ꞌ'], .lit [' '], .grp 1 (.number)], [.lit ['i', 'n', ' '], .ref 1, .lit [' ', 'd', 'a', 'y']])],
  rxCombined := some (.seqs [.grp 1 (.alts [.bos, .cls true [.letter, .mark, .digit], .lit ['_']]), .grp 2 (.alts [.seqs [.cls false [.rng 'Ɛ' 'Ɛ', .rng 'ɛ' 'ɛ'], .lit [' ', 'g'], .cls false [.rng 'Ɛ' 'Ɛ', .rng 'ɛ' 'ɛ'], .lit [' ', 'm'], .cls false [.rng 'Ɔ' 'Ɔ', .rng 'ɔ' 'ɔ'], .lit [' '], .number, .lit [' '], .cls false [.rng 'Ŋ' 'Ŋ', .rng 'ŋ' 'ŋ'], .lit ['g', 'a', 'p', '-', 'm', 'b', 'i']], .seqs [.cls false [.rng 'Ɛ' 'Ɛ', .rng 'ɛ' 'ɛ'], .lit [' ', 'g'], .cls false [.rng 'Ɛ' 'Ɛ', .rng 'ɛ' 'ɛ'], .lit [' ', 'm'], .cls false [.rng 'Ɔ' 'Ɔ', .rng 'ɔ' 'ɔ'], .lit [' ', 'm', 'i', 'n', 'u', 't', ' '], .number], .seqs [.cls false [.rng 'Ɛ' 'Ɛ', .rng 'ɛ' 'ɛ'], .lit [' ', 'g'], .cls false [.rng 'Ɛ' 'Ɛ', .rng 'ɛ' 'ɛ'], .lit [' ', 'm'], .cls false [.rng 'Ɔ' 'Ɔ', .rng 'ɔ' 'ɔ'], .lit [' ', 'p'], .cls false [.rng 'Ɛ' 'Ɛ', .rng 'ɛ' 'ɛ'], .lit ['s', 'a'], .cls false [.rng 'Ŋ' 'Ŋ', .rng 'ŋ' 'ŋ'], .lit [' '], .number], .seqs [.lit ['n', 'u', 'u', ' '], .cls false [.rng 'Ŋ' 'Ŋ', .rng 'ŋ' 'ŋ'], .lit ['g', 'a', 'p', '-', 'm', 'b', 'i', ' '], .number], .seqs [.cls false [.rng 'Ɛ' 'Ɛ', .rng 'ɛ' 'ɛ'], .lit [' ', 'g'], .cls false [.rng 'Ɛ' 'Ɛ', .rng 'ɛ' 'ɛ'], .lit [' ', 'm'], .cls false [.rng 'Ɔ' 'Ɔ', .rng 'ɔ' 'ɔ'], .lit [' '], .number, .lit [' ', 'h', 'a', 'w', 'a']], .seqs [.cls false [.rng 'Ɛ' 'Ɛ', .rng 'ɛ' 'ɛ'], .lit [' ', 'g'], .cls false [.rng 'Ɛ' 'Ɛ', .rng 'ɛ' 'ɛ'], .lit [' ', 'm'], .cls false [.rng 'Ɔ' 'Ɔ', .rng 'ɔ' 'ɔ'], .lit [' ', 'l'], .cls false [.rng 'Ɛ' 'Ɛ', .rng 'ɛ' 'ɛ'], .cls false [.rng 'Ꞌ' 'Ꞌ', .rng 'ꞌ' 'ꞌ'], .lit [' '], .number], .seqs [.cls false [.rng 'Ɛ' 'Ɛ', .rng 'ɛ' 'ɛ'], .lit ['g'], .cls false [.rng 'Ɛ' 'Ɛ', .rng 'ɛ' 'ɛ'], .lit [' ', 'm'], .cls false [.rng 'Ɔ' 'Ɔ', .rng 'ɔ' 'ɔ'], .lit [' '], .cls false [.rng 'Ŋ' 'Ŋ', .rng 'ŋ' 'ŋ'], .lit ['g', 'u'], .cls false [.rng 'Ꞌ' 'Ꞌ', .rng 'ꞌ' 'ꞌ'], .lit [' '], .number], .seqs [.lit ['n', 'u', 'u', ' '], .number, .lit [' ', 'm', 'i', 'n', 'u', 't']], .seqs [.lit ['n', 'u', 'u', ' ', 'h', 'a', 'w', 'a', ' '], .number], .seqs [.lit ['n', 'u', 'u', ' '], .cls false [.rng 'Ŋ' 'Ŋ', .rng 'ŋ' 'ŋ'], .lit ['g', 'u'], .cls false [.rng 'Ꞌ' 'Ꞌ', .rng 'ꞌ' 'ꞌ'], .lit [' '], .number], .seqs [.lit ['n', 'u', 'u', ' '], .number, .lit [' ', 's', 'a'], .cls false [.rng 'Ŋ' 'Ŋ', .rng 'ŋ' 'ŋ']], .seqs [.lit ['n', 'u', 'u', ' ', 'l'], .cls false [.rng 'Ɛ' 'Ɛ', .rng 'ɛ' 'ɛ'], .cls false [.rng 'Ꞌ' 'Ꞌ', .rng 'ꞌ' 'ꞌ'], .lit [' '], .number]]), .grp 3 (.alts [.eos, .cls true [.letter, .mark, .digit], .lit ['_']])], 3),
  rxExact := some (.seqs [.bos, .grp 1 (.alts [.seqs [.cls false [.rng 'Ɛ' 'Ɛ', .rng 'ɛ' 'ɛ'], .lit [' ', 'g'], .cls false [.rng 'Ɛ' 'Ɛ', .rng 'ɛ' 'ɛ'], .lit [' ', 'm'], .cls false [.rng 'Ɔ' 'Ɔ', .rng 'ɔ' 'ɔ'], .lit [' '], .number, .lit [' '], .cls false [.rng 'Ŋ' 'Ŋ', .rng 'ŋ' 'ŋ'], .lit ['g', 'a', 'p', '-', 'm', 'b', 'i']], .seqs [.cls false [.rng 'Ɛ' 'Ɛ', .rng 'ɛ' 'ɛ'], .lit [' ', 'g'], .cls false [.rng 'Ɛ' 'Ɛ', .rng 'ɛ' 'ɛ'], .lit [' ', 'm'], .cls false [.rng 'Ɔ' 'Ɔ', .rng 'ɔ' 'ɔ'], .lit [' ', 'm', 'i', 'n', 'u', 't', ' '], .number], .seqs [.cls false [.rng 'Ɛ' 'Ɛ', .rng 'ɛ' 'ɛ'], .lit [' ', 'g'], .cls false [.rng 'Ɛ' 'Ɛ', .rng 'ɛ' 'ɛ'], .lit [' ', 'm'], .cls false [.rng 'Ɔ' 'Ɔ', .rng 'ɔ' 'ɔ'], .lit [' ', 'p'], .cls false [.rng 'Ɛ' 'Ɛ', .rng 'ɛ' 'ɛ'], .lit ['s', 'a'], .cls false [.rng 'Ŋ' 'Ŋ', .rng 'ŋ' 'ŋ'], .lit [' '], .number], .seqs [.lit ['n', 'u', 'u', ' '], .cls false [.rng 'Ŋ' 'Ŋ', .rng 'ŋ' 'ŋ'], .lit ['g', 'a', 'p', '-', 'm', 'b', 'i', ' '], .number], .seqs [.cls false [.rng 'Ɛ' 'Ɛ', .rng 'ɛ' 'ɛ'], .lit [' ', 'g'], .cls false [.rng 'Ɛ' 'Ɛ', .rng 'ɛ' 'ɛ'], .lit [' ', 'm'], .cls false [.rng 'Ɔ' 'Ɔ', .rng 'ɔ' 'ɔ'], .lit [' '], .number, .lit [' ', 'h', 'a', 'w', 'a']], .seqs [.cls false [.rng 'Ɛ' 'Ɛ', .rng 'ɛ' 'ɛ'], .lit [' ', 'g'], .cls false [.rng 'Ɛ' 'Ɛ', .rng 'ɛ' 'ɛ'], .lit [' ', 'm'], .cls false [.rng 'Ɔ' 'Ɔ', .rng 'ɔ' 'ɔ'], .lit [' ', 'l'], .cls false [.rng 'Ɛ' 'Ɛ', .rng 'ɛ' 'ɛ'], .cls false [.rng 'Ꞌ' 'Ꞌ', .rng 'ꞌ' 'ꞌ'], .lit [' '], .number], .seqs [.cls false [.rng 'Ɛ' 'Ɛ', .rng 'ɛ' 'ɛ'], .lit ['g'], .cls false [.rng 'Ɛ' 'Ɛ', .rng 'ɛ' 'ɛ'], .lit [' ', 'm'], .cls false [.rng 'Ɔ' 'Ɔ', .rng 'ɔ' 'ɔ'], .lit [' '], .cls false [.rng 'Ŋ' 'Ŋ', .rng 'ŋ' 'ŋ'], .lit ['g', 'u'], .cls false [.rng 'Ꞌ' 'Ꞌ', .rng 'ꞌ' 'ꞌ'], .lit [' '], .number], .seqs [.lit ['n', 'u', 'u', ' '], .number, .lit [' ', 'm', 'i', 'n', 'u', 't']], .seqs [.lit ['n', 'u', 'u', ' ', 'h', 'a', 'w', 'a', ' '], .number], .seqs [.lit ['n', 'u', 'u', ' '], .cls false [.rng 'Ŋ' 'Ŋ', .rng 'ŋ' 'ŋ'], .lit ['g', 'u'], .cls false [.rng 'Ꞌ' 'Ꞌ', .rng 'ꞌ' 'ꞌ'], .lit [' '], .number], .seqs [.lit ['n', 'u', 'u', ' '], .number, .lit [' ', 's', 'a'], .cls false [.rng 'Ŋ' 'Ŋ', .rng 'ŋ' 'ŋ']], .seqs [.lit ['n', 'u', 'u', ' ', 'l'], .cls false [.rng 'Ɛ' 'Ɛ', .rng 'ɛ' 'ɛ'], .cls false [.rng 'Ꞌ' 'Ꞌ', .rng 'ꞌ' 'ꞌ'], .lit [' '], .number]]), .eos]),
  knownWords :=
   [['p', 'ɛ', 's', 'a', 'ŋ', ' ', 'p', 'ɛ', 'n', 'ɛ', 'n', 't', 'u', 'k', 'u'], ['p', 'ɛ', 's', 'a', 'ŋ', ' ', 'p', 'ɛ', 'n', 'ɛ', 'p', 'f', 'u', 'ꞌ', 'u'], ['p', 'ɛ', 's', 'a', 'ŋ', ' ', 'n', 't', 's', 'ɔ', 'p', 'm', 'ɔ'], ['p', 'ɛ', 's', 'a', 'ŋ', ' ', 'n', 't', 's', 'ɔ', 'p', 'p', 'a'], ['p', 'ɛ', 's', 'a', 'ŋ', ' ', 'p', 'ɛ', 'n', 'ɛ', 'f', 'ɔ', 'm'], ['p', 'ɛ', 's', 'a', 'ŋ', ' ', 'p', 'ɛ', 'n', 'ɛ', 'k', 'w', 'a'], ['p', 'ɛ', 's', 'a', 'ŋ', ' ', 's', 'a', 'a', 'm', 'b', 'a'], ['ŋ', 'k', 'a', ' ', 'm', 'b', 'ɔ', 't', ' ', 'n', 'j', 'i'], ['n', 'd', 'u', 'ŋ', 'm', 'b', 'i', ' ', 's', 'a', 'ŋ'], ['p', 'ɛ', 's', 'a', 'ŋ', ' ', 'n', 'ɛ', 'g', 'ɛ', 'm'], ['p', 'ɛ', 's', 'a', 'ŋ', ' ', 'p', 'a', 't', 'a', 'a'], ['p', 'ɛ', 's', 'a', 'ŋ', ' ', 'p', 'ɛ', 't', 'a', 't'], ['t', 'h', 'i', 's', ' ', 'm', 'i', 'n', 'u', 't', 'e'], ['a', 'p', 't', 'a', ' ', 'm', 'ɔ', 'n', 'd', 'i'], ['l', 'a', 's', 't', ' ', 'm', 'o', 'n', 't', 'h'], ['n', 'e', 'x', 't', ' ', 'm', 'o', 'n', 't', 'h'], ['p', 'ɛ', 's', 'a', 'ŋ', ' ', 'p', 'ɛ', 'p', 'a'], ['t', 'h', 'i', 's', ' ', 'm', 'o', 'n', 't', 'h'], ['l', 'a', 's', 't', ' ', 'w', 'e', 'e', 'k'], ['l', 'a', 's', 't', ' ', 'y', 'e', 'a', 'r'], ['n', 'e', 'x', 't', ' ', 'w', 'e', 'e', 'k'], ['n', 'e', 'x', 't', ' ', 'y', 'e', 'a', 'r'], ['t', 'h', 'i', 's', ' ', 'h', 'o', 'u', 'r'], ['t', 'h', 'i', 's', ' ', 'w', 'e', 'e', 'k'], ['t', 'h', 'i', 's', ' ', 'y', 'e', 'a', 'r'], ['y', 'e', 's', 't', 'e', 'r', 'd', 'a', 'y'], ['f', 'ɛ', 'l', 'a', 'y', 'ɛ', 'd', 'ɛ'], ['m', 'b', 'a', '\'', 'm', 'b', 'a', '\''], ['t', 'o', 'm', 'o', 'r', 'r', 'o', 'w'], ['w', 'ɛ', 'n', 'ɛ', 's', 'ɛ', 'd', 'ɛ'], ['m', 'i', 'n', 'u', 't', 'e'], ['s', 'a', 's', 'i', 'd', 'ɛ'], ['s', 'e', 'c', 'o', 'n', 'd'], ['t', 'ɔ', 's', 'ɛ', 'd', 'ɛ'], ['m', 'o', 'n', 't', 'h'], ['m', 'ɔ', 'n', 'd', 'i'], ['s', 'ɔ', 'n', 'd', 'i'], ['h', 'o', 'u', 'r'], ['l', 'ɔ', 'ꞌ', 'ɔ'], ['w', 'e', 'e', 'k'], ['y', 'e', 'a', 'r'], ['d', 'a', 'y'], ['g', 'm', 't'], ['n', 'o', 'w'], ['u', 't', 'c'], ['a', 'm'], ['p', 'm'], [' '], ['\''], ['+'], [','], ['-'], ['.'], ['/'], [':'], [';'], ['@'], ['['], [']'], ['z'], ['|']] }

/-- internal/data/jmc.go: `jmc_Locale`. -/
def jmcLang : LangData := { jmcDict with
  knownWords :=
   [['t', 'h', 'i', 's', ' ', 'm', 'i', 'n', 'u', 't', 'e'], ['l', 'a', 's', 't', ' ', 'm', 'o', 'n', 't', 'h'], ['n', 'e', 'x', 't', ' ', 'm', 'o', 'n', 't', 'h'], ['t', 'h', 'i', 's', ' ', 'm', 'o', 'n', 't', 'h'], ['j', 'u', 'm', 'a', 'p', 'i', 'l', 'y', 'i'], ['j', 'u', 'm', 'a', 't', 'a', 't', 'u', 'u'], ['k', 'y', 'i', 'u', 'k', 'o', 'n', 'y', 'i'], ['l', 'a', 's', 't', ' ', 'w', 'e', 'e', 'k'], ['l', 'a', 's', 't', ' ', 'y', 'e', 'a', 'r'], ['n', 'e', 'x', 't', ' ', 'w', 'e', 'e', 'k'], ['n', 'e', 'x', 't', ' ', 'y', 'e', 'a', 'r'], ['t', 'h', 'i', 's', ' ', 'h', 'o', 'u', 'r'], ['t', 'h', 'i', 's', ' ', 'w', 'e', 'e', 'k'], ['t', 'h', 'i', 's', ' ', 'y', 'e', 'a', 'r'], ['a', 'l', 'h', 'a', 'm', 'i', 's', 'i'], ['f', 'e', 'b', 'r', 'u', 'a', 'r', 'i'], ['j', 'u', 'm', 'a', 'm', 'o', 's', 'i'], ['j', 'u', 'm', 'a', 't', 'a', 'n', 'u'], ['s', 'e', 'p', 't', 'e', 'm', 'b', 'a'], ['a', 'p', 'r', 'i', 'l', 'y', 'i'], ['d', 'a', 'k', 'y', 'i', 'k', 'a'], ['d', 'e', 's', 'e', 'm', 'b', 'a'], ['j', 'a', 'n', 'u', 'a', 'r', 'i'], ['j', 'u', 'm', 'a', 'n', 'n', 'e'], ['n', 'o', 'v', 'e', 'm', 'b', 'a'], ['s', 'e', 'k', 'u', 'n', 'd', 'e'], ['a', 'g', 'u', 's', 't', 'i'], ['i', 'j', 'u', 'm', 'a', 'a'], ['j', 'u', 'l', 'y', 'a', 'i'], ['o', 'k', 't', 'o', 'b', 'a'], ['w', 'i', 'i', 'k', 'y', 'i'], ['j', 'u', 'n', 'y', 'i'], ['m', 'a', 'c', 'h', 'i'], ['m', 'f', 'i', 'r', 'i'], ['n', 'g', 'a', 'm', 'a'], ['u', 't', 'u', 'k', 'o'], ['m', 'a', 'k', 'a'], ['m', 'o', 'r', 'i'], ['u', 'k', 'o', 'u'], ['a', 'g', 'o'], ['a', 'l', 'h'], ['a', 'p', 'r'], ['d', 'e', 's'], ['f', 'e', 'b'], ['g', 'm', 't'], ['i', 'j', 'u'], ['i', 'n', 'u'], ['j', 'a', 'n'], ['j', 'm', 'o'], ['j', 'n', 'n'], ['j', 'p', 'i'], ['j', 't', 'n'], ['j', 't', 't'], ['j', 'u', 'l'], ['j', 'u', 'n'], ['m', 'a', 'c'], ['m', 'e', 'i'], ['n', 'o', 'v'], ['n', 'o', 'w'], ['o', 'k', 't'], ['s', 'a', 'a'], ['s', 'e', 'p'], ['u', 't', 'c'], ['a', 'm'], ['p', 'm'], [' '], ['\''], ['+'], [','], ['-'], ['.'], ['/'], [':'], [';'], ['@'], ['['], [']'], ['z'], ['|']] }

/-- internal/data/ka.go: `ka_Locale`. -/
def kaLang : LangData := { kaDict with
  simplifications :=
   [(.seqs [.grp 1 (.alts [.bos, .noWord]), .cls false [.rng 'ე' 'ე', .rng 'Ე' 'Ე'], .cls false [.rng 'რ' 'რ', .rng 'Რ' 'Რ'], .cls false [.rng 'თ' 'თ', .rng 'Თ' 'Თ'], .grp 2 (.alts [.eos, .noWord])], [.ref 1, .lit ['1'], .ref 2])],
  relativeRegexes :=
   [(.seqs [.grp 1 (.number), .lit [' '], .cls false [.rng 'კ' 'კ', .rng 'Კ' 'Კ'], .cls false [.rng 'ვ' 'ვ', .rng 'Ვ' 'Ვ'], .cls false [.rng 'ი' 'ი', .rng 'Ი' 'Ი'], .cls false [.rng 'რ' 'რ', .rng 'Რ' 'Რ'], .cls false [.rng 'ი' 'ი', .rng 'Ი' 'Ი'], .cls false [.rng 'ს' 'ს', .rng 'Ს' 'Ს'], .lit [' '], .cls false [.rng 'წ' 'წ', .rng 'Წ' 'Წ'], .cls false [.rng 'ი' 'ი', .rng 'Ი' 'Ი'], .cls false [.rng 'ნ' 'ნ', .rng 'Ნ' 'Ნ']], [.ref 1, .lit [' ', 'w', 'e', 'e', 'k', ' ', 'a', 'g', 'o']]),
    (.seqs [.grp 1 (.number), .lit [' '], .cls false [.rng 'ს' 'ს', .rng 'Ს' 'Ს'], .cls false [.rng 'ა' 'ა', .rng 'Ა' 'Ა'], .cls false [.rng 'ა' 'ა', .rng 'Ა' 'Ა'], .cls false [.rng 'თ' 'თ', .rng 'Თ' 'Თ'], .cls false [.rng 'ი' 'ი', .rng 'Ი' 'Ი'], .cls false [.rng 'ს' 'ს', .rng 'Ს' 'Ს'], .lit [' '], .cls false [.rng 'წ' 'წ', .rng 'Წ' 'Წ'], .cls false [.rng 'ი' 'ი', .rng 'Ი' 'Ი'], .cls false [.rng 'ნ' 'ნ', .rng 'Ნ' 'Ნ']], [.ref 1, .lit [' ', 'h', 'o', 'u', 'r', ' ', 'a', 'g', 'o']]),
    (.seqs [.grp 1 (.number), .lit [' '], .cls false [.rng 'წ' 'წ', .rng 'Წ' 'Წ'], .cls false [.rng 'ა' 'ა', .rng 'Ა' 'Ა'], .cls false [.rng 'მ' 'მ', .rng 'Მ' 'Მ'], .cls false [.rng 'ი' 'ი', .rng 'Ი' 'Ი'], .cls false [.rng 'ს' 'ს', .rng 'Ს' 'Ს'], .lit [' '], .cls false [.rng 'წ' 'წ', .rng 'Წ' 'Წ'], .cls false [.rng 'ი' 'ი', .rng 'Ი' 'Ი'], .cls false [.rng 'ნ' 'ნ', .rng 'Ნ' 'Ნ']], [.ref 1, .lit [' ', 's', 'e', 'c', 'o', 'n', 'd', ' ', 'a', 'g', 'o']]),
    (.seqs [.grp 1 (.number), .lit [' '], .cls false [.rng 'წ' 'წ', .rng 'Წ' 'Წ'], .cls false [.rng 'ე' 'ე', .rng 'Ე' 'Ე'], .cls false [.rng 'ლ' 'ლ', .rng 'Ლ' 'Ლ'], .cls false [.rng 'ი' 'ი', .rng 'Ი' 'Ი'], .cls false [.rng 'წ' 'წ', .rng 'Წ' 'Წ'], .cls false [.rng 'ა' 'ა', .rng 'Ა' 'Ა'], .cls false [.rng 'დ' 'დ', .rng 'Დ' 'Დ'], .cls false [.rng 'შ' 'შ', .rng 'Შ' 'Შ'], .cls false [.rng 'ი' 'ი', .rng 'Ი' 'Ი']], [.lit ['i', 'n', ' '], .ref 1, .lit [' ', 'y', 'e', 'a', 'r']]),
    (.seqs [.grp 1 (.number), .lit [' '], .cls false [.rng 'წ' 'წ', .rng 'Წ' 'Წ'], .cls false [.rng 'უ' 'უ', .rng 'Უ' 'Უ'], .cls false [.rng 'თ' 'თ', .rng 'Თ' 'Თ'], .cls false [.rng 'ი' 'ი', .rng 'Ი' 'Ი'], .cls false [.rng 'ს' 'ს', .rng 'Ს' 'Ს'], .lit [' '], .cls false [.rng 'წ' 'წ', .rng 'Წ' 'Წ'], .cls false [.rng 'ი' 'ი', .rng 'Ი' 'Ი'], .cls false [.rng 'ნ' 'ნ', .rng 'Ნ' 'Ნ']], [.ref 1, .lit [' ', 'm', 'i', 'n', 'u', 't', 'e', ' ', 'a', 'g', 'o']]),
    (.seqs [.grp 1 (.number), .lit [' '], .cls false [.rng 'დ' 'დ', .rng 'Დ' 'Დ'], .cls false [.rng 'ღ' 'ღ', .rng 'Ღ' 'Ღ'], .cls false [.rng 'ი' 'ი', .rng 'Ი' 'Ი'], .cls false [.rng 'ს' 'ს', .rng 'Ს' 'Ს'], .lit [' '], .cls false [.rng 'წ' 'წ', .rng 'Წ' 'Წ'], .cls false [.rng 'ი' 'ი', .rng 'Ი' 'Ი'], .cls false [.rng 'ნ' 'ნ', .rng 'Ნ' 'Ნ']], [.ref 1, .lit [' ', 'd', 'a', 'y', ' ', 'a', 'g', 'o']]),
    (.seqs [.grp 1 (.number), .lit [' '], .cls false [.rng 'თ' 'თ', .rng 'Თ' 'Თ'], .cls false [.rng 'ვ' 'ვ', .rng 'Ვ' 'Ვ'], .cls false [.rng 'ი' 'ი', .rng 'Ი' 'Ი'], .cls false [.rng 'ს' 'ს', .rng 'Ს' 'Ს'], .lit [' '], .cls false [.rng 'წ' 'წ', .rng 'Წ' 'Წ'], .cls false [.rng 'ი' 'ი', .rng 'Ი' 'Ი'], .cls false [.rng 'ნ' 'ნ', .rng 'Ნ' 'Ნ']], [.ref 1, .lit [' ', 'm', 'o', 'n', 't', 'h', ' ', 'a', 'g', 'o']]),
    (.seqs [.grp 1 (.number), .lit [' '], .cls false [.rng 'წ' 'წ', .rng 'Წ' 'Წ'], .cls false [.rng 'ლ' 'ლ', .rng 'Ლ' 'Ლ'], .cls false [.rng 'ი' 'ი', .rng 'Ი' 'Ი'], .cls false [.rng 'ს' 'ს', .rng 'Ს' 'Ს'], .lit [' '], .cls false [.rng 'წ' 'წ', .rng 'Წ' 'Წ'], .cls false [.rng 'ი' 'ი', .rng 'Ი' 'Ი'], .cls false [.rng 'ნ' 'ნ', .rng 'Ნ' 'Ნ']], [.ref 1, .lit [' ', 'y', 'e', 'a', 'r', ' ', 'a', 'g', 'o']]),
    (.seqs [.grp 1 (.number), .lit [' '], .cls false [.rng 'კ' 'კ', .rng 'Კ' 'Კ'], .cls false [.rng 'ვ' 'ვ', .rng 'Ვ' 'Ვ'], .cls false [.rng 'ი' 'ი', .rng 'Ი' 'Ი'], .cls false [.rng 'რ' 'რ', .rng 'Რ' 'Რ'], .cls false [.rng 'ა' 'ა', .rng 'Ა' 'Ა'], .cls false [.rng 'შ' 'შ', .rng 'Შ' 'Შ'], .cls false [.rng 'ი' 'ი', .rng 'Ი' 'Ი']], [.lit ['i', 'n', ' '], .ref 1, .lit [' ', 'w', 'e', 'e', 'k']]),
    (.seqs [.grp 1 (.number), .lit [' '], .cls false [.rng 'კ' 'კ', .rng 'Კ' 'Კ'], .cls false [.rng 'ვ' 'ვ', .rng 'Ვ' 'Ვ'], .lit [' '], .cls false [.rng 'წ' 'წ', .rng 'Წ' 'Წ'], .cls false [.rng 'ი' 'ი', .rng 'Ი' 'Ი'], .cls false [.rng 'ნ' 'ნ', .rng 'Ნ' 'Ნ']], [.ref 1, .lit [' ', 'w', 'e', 'e', 'k', ' ', 'a', 'g', 'o']]),
    (.seqs [.grp 1 (.number), .lit [' '], .cls false [.rng 'ს' 'ს', .rng 'Ს' 'Ს'], .cls false [.rng 'ა' 'ა', .rng 'Ა' 'Ა'], .cls false [.rng 'ა' 'ა', .rng 'Ა' 'Ა'], .cls false [.rng 'თ' 'თ', .rng 'Თ' 'Თ'], .cls false [.rng 'შ' 'შ', .rng 'Შ' 'Შ'], .cls false [.rng 'ი' 'ი', .rng 'Ი' 'Ი']], [.lit ['i', 'n', ' '], .ref 1, .lit [' ', 'h', 'o', 'u', 'r']]),
    (.seqs [.grp 1 (.number), .lit [' '], .cls false [.rng 'ს' 'ს', .rng 'Ს' 'Ს'], .cls false [.rng 'თ' 'თ', .rng 'Თ' 'Თ'], .lit [' '], .cls false [.rng 'წ' 'წ', .rng 'Წ' 'Წ'], .cls false [.rng 'ი' 'ი', .rng 'Ი' 'Ი'], .cls false [.rng 'ნ' 'ნ', .rng 'Ნ' 'Ნ']], [.ref 1, .lit [' ', 'h', 'o', 'u', 'r', ' ', 'a', 'g', 'o']]),
    (.seqs [.grp 1 (.number), .lit [' '], .cls false [.rng 'წ' 'წ', .rng 'Წ' 'Წ'], .cls false [.rng 'თ' 'თ', .rng 'Თ' 'Თ'], .lit [' '], .cls false [.rng 'წ' 'წ', .rng 'Წ' 'Წ'], .cls false [.rng 'ი' 'ი', .rng 'Ი' 'Ი'], .cls false [.rng 'ნ' 'ნ', .rng 'Ნ' 'Ნ']], [.ref 1, .lit [' ', 'm', 'i', 'n', 'u', 't', 'e', ' ', 'a', 'g', 'o']]),
    (.seqs [.grp 1 (.number), .lit [' '], .cls false [.rng 'წ' 'წ', .rng 'Წ' 'Წ'], .cls false [.rng 'მ' 'მ', .rng 'Მ' 'Მ'], .lit [' '], .cls false [.rng 'წ' 'წ', .rng 'Წ' 'Წ'], .cls false [.rng 'ი' 'ი', .rng 'Ი' 'Ი'], .cls false [.rng 'ნ' 'ნ', .rng 'Ნ' 'Ნ']], [.ref 1, .lit [' ', 's', 'e', 'c', 'o', 'n', 'd', ' ', 'a', 'g', 'o']]),
    (.seqs [.grp 1 (.number), .lit [' '], .cls false [.rng 'დ' 'დ', .rng 'Დ' 'Დ'], .cls false [.rng 'ღ' 'ღ', .rng 'Ღ' 'Ღ'], .cls false [.rng 'ე' 'ე', .rng 'Ე' 'Ე'], .cls false [.rng 'შ' 'შ', .rng 'Შ' 'Შ'], .cls false [.rng 'ი' 'ი', .rng 'Ი' 'Ი']], [.lit ['i', 'n', ' '], .ref 1, .lit [' ', 'd', 'a', 'y']]),
    (.seqs [.grp 1 (.number), .lit [' '], .cls false [.rng 'თ' 'თ', .rng 'Თ' 'Თ'], .cls false [.rng 'ვ' 'ვ', .rng 'Ვ' 'Ვ'], .cls false [.rng 'ე' 'ე', .rng 'Ე' 'Ე'], .cls false [.rng 'შ' 'შ', .rng 'Შ' 'Შ'], .cls false [.rng 'ი' 'ი', .rng 'Ი' 'Ი']], [.lit ['i', 'n', ' '], .ref 1, .lit [' ', 'm', 'o', 'n', 't', 'h']]),
    (.seqs [.grp 1 (.number), .lit [' '], .cls false [.rng 'წ' 'წ', .rng 'Წ' 'Წ'], .cls false [.rng 'ა' 'ა', .rng 'Ა' 'Ა'], .cls false [.rng 'მ' 'მ', .rng 'Მ' 'Მ'], .cls false [.rng 'შ' 'შ', .rng 'Შ' 'Შ'], .cls false [.rng 'ი' 'ი', .rng 'Ი' 'Ი']], [.lit ['i', 'n', ' '], .ref 1, .lit [' ', 's', 'e', 'c', 'o', 'n', 'd']]),
    (.seqs [.grp 1 (.number), .lit [' '], .cls false [.rng 'წ' 'წ', .rng 'Წ' 'Წ'], .cls false [.rng 'ე' 'ე', .rng 'Ე' 'Ე'], .cls false [.rng 'ლ' 'ლ', .rng 'Ლ' 'Ლ'], .cls false [.rng 'შ' 'შ', .rng 'Შ' 'Შ'], .cls false [.rng 'ი' 'ი', .rng 'Ი' 'Ი']], [.lit ['i', 'n', ' '], .ref 1, .lit [' ', 'y', 'e', 'a', 'r']]),
    (.seqs [.grp 1 (.number), .lit [' '], .cls false [.rng 'წ' 'წ', .rng 'Წ' 'Წ'], .cls false [.rng 'უ' 'უ', .rng 'Უ' 'Უ'], .cls false [.rng 'თ' 'თ', .rng 'Თ' 'Თ'], .cls false [.rng 'შ' 'შ', .rng 'Შ' 'Შ'], .cls false [.rng 'ი' 'ი', .rng 'Ი' 'Ი']], [.lit ['i', 'n', ' '], .ref 1, .lit [' ', 'm', 'i', 'n', 'u', 't', 'e']])],
  rxCombined := some (.seqs [.grp 1 (.alts [.bos, .cls true [.letter, .mark, .digit], .lit ['_']]), .grp 2 (.alts [.seqs [.number, .lit [' '], .cls false [.rng 'კ' 'კ', .rng 'Კ' 'Კ'], .cls false [.rng 'ვ' 'ვ', .rng 'Ვ' 'Ვ'], .cls false [.rng 'ი' 'ი', .rng 'Ი' 'Ი'], .cls false [.rng 'რ' 'რ', .rng 'Რ' 'Რ'], .cls false [.rng 'ი' 'ი', .rng 'Ი' 'Ი'], .cls false [.rng 'ს' 'ს', .rng 'Ს' 'Ს'], .lit [' '], .cls false [.rng 'წ' 'წ', .rng 'Წ' 'Წ'], .cls false [.rng 'ი' 'ი', .rng 'Ი' 'Ი'], .cls false [.rng 'ნ' 'ნ', .rng 'Ნ' 'Ნ']], .seqs [.number, .lit [' '], .cls false [.rng 'ს' 'ს', .rng 'Ს' 'Ს'], .cls false [.rng 'ა' 'ა', .rng 'Ა' 'Ა'], .cls false [.rng 'ა' 'ა', .rng 'Ა' 'Ა'], .cls false [.rng 'თ' 'თ', .rng 'Თ' 'Თ'], .cls false [.rng 'ი' 'ი', .rng 'Ი' 'Ი'], .cls false [.rng 'ს' 'ს', .rng 'Ს' 'Ს'], .lit [' '], .cls false [.rng 'წ' 'წ', .rng 'Წ' 'Წ'], .cls false [.rng 'ი' 'ი', .rng 'Ი' 'Ი'], .cls false [.rng 'ნ' 'ნ', .rng 'Ნ' 'Ნ']], .seqs [.number, .lit [' '], .cls false [.rng 'წ' 'წ', .rng 'Წ' 'Წ'], .cls false [.rng 'ა' 'ა', .rng 'Ა' 'Ა'], .cls false [.rng 'მ' 'მ', .rng 'Მ' 'Მ'], .cls false [.rng 'ი' 'ი', .rng 'Ი' 'Ი'], .cls false [.rng 'ს' 'ს', .rng 'Ს' 'Ს'], .lit [' '], .cls false [.rng 'წ' 'წ', .rng 'Წ' 'Წ'], .cls false [.rng 'ი' 'ი', .rng 'Ი' 'Ი'], .cls false [.rng 'ნ' 'ნ', .rng 'Ნ' 'Ნ']], .seqs [.number, .lit [' '], .cls false [.rng 'წ' 'წ', .rng 'Წ' 'Წ'], .cls false [.rng 'ე' 'ე', .rng 'Ე' 'Ე'], .cls false [.rng 'ლ' 'ლ', .rng 'Ლ' 'Ლ'], .cls false [.rng 'ი' 'ი', .rng 'Ი' 'Ი'], .cls false [.rng 'წ' 'წ', .rng 'Წ' 'Წ'], .cls false [.rng 'ა' 'ა', .rng 'Ა' 'Ა'], .cls false [.rng 'დ' 'დ', .rng 'Დ' 'Დ'], .cls false [.rng 'შ' 'შ', .rng 'Შ' 'Შ'], .cls false [.rng 'ი' 'ი', .rng 'Ი' 'Ი']], .seqs [.number, .lit [' '], .cls false [.rng 'წ' 'წ', .rng 'Წ' 'Წ'], .cls false [.rng 'უ' 'უ', .rng 'Უ' 'Უ'], .cls false [.rng 'თ' 'თ', .rng 'Თ' 'Თ'], .cls false [.rng 'ი' 'ი', .rng 'Ი' 'Ი'], .cls false [.rng 'ს' 'ს', .rng 'Ს' 'Ს'], .lit [' '], .cls false [.rng 'წ' 'წ', .rng 'Წ' 'Წ'], .cls false [.rng 'ი' 'ი', .rng 'Ი' 'Ი'], .cls false [.rng 'ნ' 'ნ', .rng 'Ნ' 'Ნ']], .seqs [.number, .lit [' '], .cls false [.rng 'დ' 'დ', .rng 'Დ' 'Დ'], .cls false [.rng 'ღ' 'ღ', .rng 'Ღ' 'Ღ'], .cls false [.rng 'ი' 'ი', .rng 'Ი' 'Ი'], .cls false [.rng 'ს' 'ს', .rng 'Ს' 'Ს'], .lit [' '], .cls false [.rng 'წ' 'წ', .rng 'Წ' 'Წ'], .cls false [.rng 'ი' 'ი', .rng 'Ი' 'Ი'], .cls false [.rng 'ნ' 'ნ', .rng 'Ნ' 'Ნ']], .seqs [.number, .lit [' '], .cls false [.rng 'თ' 'თ', .rng 'Თ' 'Თ'], .cls false [.rng 'ვ' 'ვ', .rng 'Ვ' 'Ვ'], .cls false [.rng 'ი' 'ი', .rng 'Ი' 'Ი'], .cls false [.rng 'ს' 'ს', .rng 'Ს' 'Ს'], .lit [' '], .cls false [.rng 'წ' 'წ', .rng 'Წ' 'Წ'], .cls false [.rng 'ი' 'ი', .rng 'Ი' 'Ი'], .cls false [.rng 'ნ' 'ნ', .rng 'Ნ' 'Ნ']], .seqs [.number, .lit [' '], .cls false [.rng 'წ' 'წ', .rng 'Წ' 'Წ'], .cls false [.rng 'ლ' 'ლ', .rng 'Ლ' 'Ლ'], .cls false [.rng 'ი' 'ი', .rng 'Ი' 'Ი'], .cls false [.rng 'ს' 'ს', .rng 'Ს' 'Ს'], .lit [' '], .cls false [.rng 'წ' 'წ', .rng 'Წ' 'Წ'], .cls false [.rng 'ი' 'ი', .rng 'Ი' 'Ი'], .cls false [.rng 'ნ' 'ნ', .rng 'Ნ' 'Ნ']], .seqs [.number, .lit [' '], .cls false [.rng 'კ' 'კ', .rng 'Კ' 'Კ'], .cls false [.rng 'ვ' 'ვ', .rng 'Ვ' 'Ვ'], .cls false [.rng 'ი' 'ი', .rng 'Ი' 'Ი'], .cls false [.rng 'რ' 'რ', .rng 'Რ' 'Რ'], .cls false [.rng 'ა' 'ა', .rng 'Ა' 'Ა'], .cls false [.rng 'შ' 'შ', .rng 'Შ' 'Შ'], .cls false [.rng 'ი' 'ი', .rng 'Ი' 'Ი']], .seqs [.number, .lit [' '], .cls false [.rng 'კ' 'კ', .rng 'Კ' 'Კ'], .cls false [.rng 'ვ' 'ვ', .rng 'Ვ' 'Ვ'], .lit [' '], .cls false [.rng 'წ' 'წ', .rng 'Წ' 'Წ'], .cls false [.rng 'ი' 'ი', .rng 'Ი' 'Ი'], .cls false [.rng 'ნ' 'ნ', .rng 'Ნ' 'Ნ']], .seqs [.number, .lit [' '], .cls false [.rng 'ს' 'ს', .rng 'Ს' 'Ს'], .cls false [.rng 'ა' 'ა', .rng 'Ა' 'Ა'], .cls false [.rng 'ა' 'ა', .rng 'Ა' 'Ა'], .cls false [.rng 'თ' 'თ', .rng 'Თ' 'Თ'], .cls false [.rng 'შ' 'შ', .rng 'Შ' 'Შ'], .cls false [.rng 'ი' 'ი', .rng 'Ი' 'Ი']], .seqs [.number, .lit [' '], .cls false [.rng 'ს' 'ს', .rng 'Ს' 'Ს'], .cls false [.rng 'თ' 'თ', .rng 'Თ' 'Თ'], .lit [' '], .cls false [.rng 'წ' 'წ', .rng 'Წ' 'Წ'], .cls false [.rng 'ი' 'ი', .rng 'Ი' 'Ი'], .cls false [.rng 'ნ' 'ნ', .rng 'Ნ' 'Ნ']], .seqs [.number, .lit [' '], .cls false [.rng 'წ' 'წ', .rng 'Წ' 'Წ'], .cls false [.rng 'თ' 'თ', .rng 'Თ' 'Თ'], .lit [' '], .cls false [.rng 'წ' 'წ', .rng 'Წ' 'Წ'], .cls false [.rng 'ი' 'ი', .rng 'Ი' 'Ი'], .cls false [.rng 'ნ' 'ნ', .rng 'Ნ' 'Ნ']], .seqs [.number, .lit [' '], .cls false [.rng 'წ' 'წ', .rng 'Წ' 'Წ'], .cls false [.rng 'მ' 'მ', .rng 'Მ' 'Მ'], .lit [' '], .cls false [.rng 'წ' 'წ', .rng 'Წ' 'Წ'], .cls false [.rng 'ი' 'ი', .rng 'Ი' 'Ი'], .cls false [.rng 'ნ' 'ნ', .rng 'Ნ' 'Ნ']], .seqs [.number, .lit [' '], .cls false [.rng 'დ' 'დ', .rng 'Დ' 'Დ'], .cls false [.rng 'ღ' 'ღ', .rng 'Ღ' 'Ღ'], .cls false [.rng 'ე' 'ე', .rng 'Ე' 'Ე'], .cls false [.rng 'შ' 'შ', .rng 'Შ' 'Შ'], .cls false [.rng 'ი' 'ი', .rng 'Ი' 'Ი']], .seqs [.number, .lit [' '], .cls false [.rng 'თ' 'თ', .rng 'Თ' 'Თ'], .cls false [.rng 'ვ' 'ვ', .rng 'Ვ' 'Ვ'], .cls false [.rng 'ე' 'ე', .rng 'Ე' 'Ე'], .cls false [.rng 'შ' 'შ', .rng 'Შ' 'Შ'], .cls false [.rng 'ი' 'ი', .rng 'Ი' 'Ი']], .seqs [.number, .lit [' '], .cls false [.rng 'წ' 'წ', .rng 'Წ' 'Წ'], .cls false [.rng 'ა' 'ა', .rng 'Ა' 'Ა'], .cls false [.rng 'მ' 'მ', .rng 'Მ' 'Მ'], .cls false [.rng 'შ' 'შ', .rng 'Შ' 'Შ'], .cls false [.rng 'ი' 'ი', .rng 'Ი' 'Ი']], .seqs [.number, .lit [' '], .cls false [.rng 'წ' 'წ', .rng 'Წ' 'Წ'], .cls false [.rng 'ე' 'ე', .rng 'Ე' 'Ე'], .cls false [.rng 'ლ' 'ლ', .rng 'Ლ' 'Ლ'], .cls false [.rng 'შ' 'შ', .rng 'Შ' 'Შ'], .cls false [.rng 'ი' 'ი', .rng 'Ი' 'Ი']], .seqs [.number, .lit [' '], .cls false [.rng 'წ' 'წ', .rng 'Წ' 'Წ'], .cls false [.rng 'უ' 'უ', .rng 'Უ' 'Უ'], .cls false [.rng 'თ' 'თ', .rng 'Თ' 'Თ'], .cls false [.rng 'შ' 'შ', .rng 'Შ' 'Შ'], .cls false [.rng 'ი' 'ი', .rng 'Ი' 'Ი']]]), .grp 3 (.alts [.eos, .cls true [.letter, .mark, .digit], .lit ['_']])], 3),
  rxExact := some (.seqs [.bos, .grp 1 (.alts [.seqs [.number, .lit [' '], .cls false [.rng 'კ' 'კ', .rng 'Კ' 'Კ'], .cls false [.rng 'ვ' 'ვ', .rng 'Ვ' 'Ვ'], .cls false [.rng 'ი' 'ი', .rng 'Ი' 'Ი'], .cls false [.rng 'რ' 'რ', .rng 'Რ' 'Რ'], .cls false [.rng 'ი' 'ი', .rng 'Ი' 'Ი'], .cls false [.rng 'ს' 'ს', .rng 'Ს' 'Ს'], .lit [' '], .cls false [.rng 'წ' 'წ', .rng 'Წ' 'Წ'], .cls false [.rng 'ი' 'ი', .rng 'Ი' 'Ი'], .cls false [.rng 'ნ' 'ნ', .rng 'Ნ' 'Ნ']], .seqs [.number, .lit [' '], .cls false [.rng 'ს' 'ს', .rng 'Ს' 'Ს'], .cls false [.rng 'ა' 'ა', .rng 'Ა' 'Ა'], .cls false [.rng 'ა' 'ა', .rng 'Ა' 'Ა'], .cls false [.rng 'თ' 'თ', .rng 'Თ' 'Თ'], .cls false [.rng 'ი' 'ი', .rng 'Ი' 'Ი'], .cls false [.rng 'ს' 'ს', .rng 'Ს' 'Ს'], .lit [' '], .cls false [.rng 'წ' 'წ', .rng 'Წ' 'Წ'], .cls false [.rng 'ი' 'ი', .rng 'Ი' 'Ი'], .cls false [.rng 'ნ' 'ნ', .rng 'Ნ' 'Ნ']], .seqs [.number, .lit [' '], .cls false [.rng 'წ' 'წ', .rng 'Წ' 'Წ'], .cls false [.rng 'ა' 'ა', .rng 'Ა' 'Ა'], .cls false [.rng 'მ' 'მ', .rng 'Მ' 'Მ'], .cls false [.rng 'ი' 'ი', .rng 'Ი' 'Ი'], .cls false [.rng 'ს' 'ს', .rng 'Ს' 'Ს'], .lit [' '], .cls false [.rng 'წ' 'წ', .rng 'Წ' 'Წ'], .cls false [.rng 'ი' 'ი', .rng 'Ი' 'Ი'], .cls false [.rng 'ნ' 'ნ', .rng 'Ნ' 'Ნ']], .seqs [.number, .lit [' '], .cls false [.rng 'წ' 'წ', .rng 'Წ' 'Წ'], .cls false [.rng 'ე' 'ე', .rng 'Ე' 'Ე'], .cls false [.rng 'ლ' 'ლ', .rng 'Ლ' 'Ლ'], .cls false [.rng 'ი' 'ი', .rng 'Ი' 'Ი'], .cls false [.rng 'წ' 'წ', .rng 'Წ' 'Წ'], .cls false [.rng 'ა' 'ა', .rng 'Ა' 'Ა'], .cls false [.rng 'დ' 'დ', .rng 'Დ' 'Დ'], .cls false [.rng 'შ' 'შ', .rng 'Შ' 'Შ'], .cls false [.rng 'ი' 'ი', .rng 'Ი' 'Ი']], .seqs [.number, .lit [' '], .cls false [.rng 'წ' 'წ', .rng 'Წ' 'Წ'], .cls false [.rng 'უ' 'უ', .rng 'Უ' 'Უ'], .cls false [.rng 'თ' 'თ', .rng 'Თ' 'Თ'], .cls false [.rng 'ი' 'ი', .rng 'Ი' 'Ი'], .cls false [.rng 'ს' 'ს', .rng 'Ს' 'Ს'], .lit [' '], .cls false [.rng 'წ' 'წ', .rng 'Წ' 'Წ'], .cls false [.rng 'ი' 'ი', .rng 'Ი' 'Ი'], .cls false [.rng 'ნ' 'ნ', .rng 'Ნ' 'Ნ']], .seqs [.number, .lit [' '], .cls false [.rng 'დ' 'დ', .rng 'Დ' 'Დ'], .cls false [.rng 'ღ' 'ღ', .rng 'Ღ' 'Ღ'], .cls false [.rng 'ი' 'ი', .rng 'Ი' 'Ი'], .cls false [.rng 'ს' 'ს', .rng 'Ს' 'Ს'], .lit [' '], .cls false [.rng 'წ' 'წ', .rng 'Წ' 'Წ'], .cls false [.rng 'ი' 'ი', .rng 'Ი' 'Ი'], .cls false [.rng 'ნ' 'ნ', .rng 'Ნ' 'Ნ']], .seqs [.number, .lit [' '], .cls false [.rng 'თ' 'თ', .rng 'Თ' 'Თ'], .cls false [.rng 'ვ' 'ვ', .rng 'Ვ' 'Ვ'], .cls false [.rng 'ი' 'ი', .rng 'Ი' 'Ი'], .cls false [.rng 'ს' 'ს', .rng 'Ს' 'Ს'], .lit [' '], .cls false [.rng 'წ' 'წ', .rng 'Წ' 'Წ'], .cls false [.rng 'ი' 'ი', .rng 'Ი' 'Ი'], .cls false [.rng 'ნ' 'ნ', .rng 'Ნ' 'Ნ']], .seqs [.number, .lit [' '], .cls false [.rng 'წ' 'წ', .rng 'Წ' 'Წ'], .cls false [.rng 'ლ' 'ლ', .rng 'Ლ' 'Ლ'], .cls false [.rng 'ი' 'ი', .rng 'Ი' 'Ი'], .cls false [.rng 'ს' 'ს', .rng 'Ს' 'Ს'], .lit [' '], .cls false [.rng 'წ' 'წ', .rng 'Წ' 'Წ'], .cls false [.rng 'ი' 'ი', .rng 'Ი' 'Ი'], .cls false [.rng 'ნ' 'ნ', .rng 'Ნ' 'Ნ']], .seqs [.number, .lit [' '], .cls false [.rng 'კ' 'კ', .rng 'Კ' 'Კ'], .cls false [.rng 'ვ' 'ვ', .rng 'Ვ' 'Ვ'], .cls false [.rng 'ი' 'ი', .rng 'Ი' 'Ი'], .cls false [.rng 'რ' 'რ', .rng 'Რ' 'Რ'], .cls false [.rng 'ა' 'ა', .rng 'Ა' 'Ა'], .cls false [.rng 'შ' 'შ', .rng 'Შ' 'Შ'], .cls false [.rng 'ი' 'ი', .rng 'Ი' 'Ი']], .seqs [.number, .lit [' '], .cls false [.rng 'კ' 'კ', .rng 'Კ' 'Კ'], .cls false [.rng 'ვ' 'ვ', .rng 'Ვ' 'Ვ'], .lit [' '], .cls false [.rng 'წ' 'წ', .rng 'Წ' 'Წ'], .cls false [.rng 'ი' 'ი', .rng 'Ი' 'Ი'], .cls false [.rng 'ნ' 'ნ', .rng 'Ნ' 'Ნ']], .seqs [.number, .lit [' '], .cls false [.rng 'ს' 'ს', .rng 'Ს' 'Ს'], .cls false [.rng 'ა' 'ა', .rng 'Ა' 'Ა'], .cls false [.rng 'ა' 'ა', .rng 'Ა' 'Ა'], .cls false [.rng 'თ' 'თ', .rng 'Თ' 'Თ'], .cls false [.rng 'შ' 'შ', .rng 'Შ' 'Შ'], .cls false [.rng 'ი' 'ი', .rng 'Ი' 'Ი']], .seqs [.number, .lit [' '], .cls false [.rng 'ს' 'ს', .rng 'Ს' 'Ს'], .cls false [.rng 'თ' 'თ', .rng 'Თ' 'Თ'], .lit [' '], .cls false [.rng 'წ' 'წ', .rng 'Წ' 'Წ'], .cls false [.rng 'ი' 'ი', .rng 'Ი' 'Ი'], .cls false [.rng 'ნ' 'ნ', .rng 'Ნ' 'Ნ']], .seqs [.number, .lit [' '], .cls false [.rng 'წ' 'წ', .rng 'Წ' 'Წ'], .cls false [.rng 'თ' 'თ', .rng 'Თ' 'Თ'], .lit [' '], .cls false [.rng 'წ' 'წ', .rng 'Წ' 'Წ'], .cls false [.rng 'ი' 'ი', .rng 'Ი' 'Ი'], .cls false [.rng 'ნ' 'ნ', .rng 'Ნ' 'Ნ']], .seqs [.number, .lit [' '], .cls false [.rng 'წ' 'წ', .rng 'Წ' 'Წ'], .cls false [.rng 'მ' 'მ', .rng 'Მ' 'Მ'], .lit [' '], .cls false [.rng 'წ' 'წ', .rng 'Წ' 'Წ'], .cls false [.rng 'ი' 'ი', .rng 'Ი' 'Ი'], .cls false [.rng 'ნ' 'ნ', .rng 'Ნ' 'Ნ']], .seqs [.number, .lit [' '], .cls false [.rng 'დ' 'დ', .rng 'Დ' 'Დ'], .cls false [.rng 'ღ' 'ღ', .rng 'Ღ' 'Ღ'], .cls false [.rng 'ე' 'ე', .rng 'Ე' 'Ე'], .cls false [.rng 'შ' 'შ', .rng 'Შ' 'Შ'], .cls false [.rng 'ი' 'ი', .rng 'Ი' 'Ი']], .seqs [.number, .lit [' '], .cls false [.rng 'თ' 'თ', .rng 'Თ' 'Თ'], .cls false [.rng 'ვ' 'ვ', .rng 'Ვ' 'Ვ'], .cls false [.rng 'ე' 'ე', .rng 'Ე' 'Ე'], .cls false [.rng 'შ' 'შ', .rng 'Შ' 'Შ'], .cls false [.rng 'ი' 'ი', .rng 'Ი' 'Ი']], .seqs [.number, .lit [' '], .cls false [.rng 'წ' 'წ', .rng 'Წ' 'Წ'], .cls false [.rng 'ა' 'ა', .rng 'Ა' 'Ა'], .cls false [.rng 'მ' 'მ', .rng 'Მ' 'Მ'], .cls false [.rng 'შ' 'შ', .rng 'Შ' 'Შ'], .cls false [.rng 'ი' 'ი', .rng 'Ი' 'Ი']], .seqs [.number, .lit [' '], .cls false [.rng 'წ' 'წ', .rng 'Წ' 'Წ'], .cls false [.rng 'ე' 'ე', .rng 'Ე' 'Ე'], .cls false [.rng 'ლ' 'ლ', .rng 'Ლ' 'Ლ'], .cls false [.rng 'შ' 'შ', .rng 'Შ' 'Შ'], .cls false [.rng 'ი' 'ი', .rng 'Ი' 'Ი']], .seqs [.number, .lit [' '], .cls false [.rng 'წ' 'წ', .rng 'Წ' 'Წ'], .cls false [.rng 'უ' 'უ', .rng 'Უ' 'Უ'], .cls false [.rng 'თ' 'თ', .rng 'Თ' 'Თ'], .cls false [.rng 'შ' 'შ', .rng 'Შ' 'Შ'], .cls false [.rng 'ი' 'ი', .rng 'Ი' 'Ი']]]), .eos]),
  knownWords :=
   [['მ', 'ო', 'მ', 'ა', 'ვ', 'ა', 'ლ', ' ', 'კ', 'ვ', 'ი', 'რ', 'ა', 'შ', 'ი'], ['გ', 'ა', 'ს', 'უ', 'ლ', ' ', 'კ', 'ვ', 'ი', 'რ', 'ა', 'შ', 'ი'], ['მ', 'ო', 'მ', 'ა', 'ვ', 'ა', 'ლ', ' ', 'თ', 'ვ', 'ე', 'ს'], ['მ', 'ო', 'მ', 'ა', 'ვ', 'ა', 'ლ', ' ', 'წ', 'ე', 'ლ', 'ს'], ['შ', 'უ', 'ა', 'დ', 'ღ', ' ', 'შ', 'ე', 'მ', 'დ', 'ე', 'გ'], ['ა', 'მ', ' ', 'კ', 'ვ', 'ი', 'რ', 'ა', 'შ', 'ი'], ['გ', 'ა', 'ს', 'უ', 'ლ', ' ', 'თ', 'ვ', 'ე', 'ს'], ['გ', 'ა', 'ს', 'უ', 'ლ', ' ', 'წ', 'ე', 'ლ', 'ს'], ['დ', 'ა', 'ა', 'ხ', 'ლ', 'ო', 'ე', 'ბ', 'ი', 'თ'], ['ს', 'ე', 'ქ', 'ტ', 'ე', 'მ', 'ბ', 'ე', 'რ', 'ი'], ['ა', 'მ', ' ', 'ს', 'ა', 'ა', 'თ', 'შ', 'ი'], ['დ', 'ე', 'კ', 'ე', 'მ', 'ბ', 'ე', 'რ', 'ი'], ['თ', 'ე', 'ბ', 'ე', 'რ', 'ვ', 'ა', 'ლ', 'ი'], ['ო', 'თ', 'ხ', 'შ', 'ა', 'ბ', 'ა', 'თ', 'ი'], ['ო', 'ქ', 'ტ', 'ო', 'მ', 'ბ', 'ე', 'რ', 'ი'], ['პ', 'ა', 'რ', 'ა', 'ს', 'კ', 'ე', 'ვ', 'ი'], ['ს', 'ა', 'მ', 'შ', 'ა', 'ბ', 'ა', 'თ', 'ი'], ['ხ', 'უ', 'თ', 'შ', 'ა', 'ბ', 'ა', 'თ', 'ი'], ['ა', 'მ', ' ', 'თ', 'ვ', 'ე', 'შ', 'ი'], ['ა', 'მ', ' ', 'წ', 'უ', 'თ', 'შ', 'ი'], ['ნ', 'ო', 'ე', 'მ', 'ბ', 'ე', 'რ', 'ი'], ['ო', 'რ', 'შ', 'ა', 'ბ', 'ა', 'თ', 'ი'], ['ა', 'გ', 'ვ', 'ი', 'ს', 'ტ', 'ო'], ['ა', 'მ', ' ', 'წ', 'ე', 'ლ', 'ს'], ['დ', 'ღ', 'ე', 'ი', 'დ', 'ა', 'ნ'], ['ი', 'ა', 'ნ', 'ვ', 'ა', 'რ', 'ი'], ['ა', 'პ', 'რ', 'ი', 'ლ', 'ი'], ['ი', 'ვ', 'ლ', 'ი', 'ს', 'ი'], ['ი', 'ვ', 'ნ', 'ი', 'ს', 'ი'], ['შ', 'ა', 'ბ', 'ა', 'თ', 'ი'], ['გ', 'უ', 'შ', 'ი', 'ნ'], ['კ', 'ვ', 'ი', 'რ', 'ა'], ['მ', 'ა', 'ი', 'ს', 'ი'], ['მ', 'ა', 'რ', 'ტ', 'ი'], ['ს', 'ა', 'ა', 'თ', 'ი'], ['ა', 'ხ', 'ლ', 'ა'], ['დ', 'ღ', 'ე', 'ს'], ['წ', 'ა', 'მ', 'ი'], ['წ', 'ე', 'ლ', 'ი'], ['წ', 'ლ', 'ი', 'ს'], ['წ', 'უ', 'თ', 'ი'], ['ხ', 'ვ', 'ა', 'ლ'], ['g', 'm', 't'], ['u', 't', 'c'], ['ა', 'გ', 'ვ'], ['ა', 'პ', 'რ'], ['დ', 'ე', 'კ'], ['დ', 'ღ', 'ე'], ['თ', 'ე', 'ბ'], ['თ', 'ვ', 'ე'], ['ი', 'ა', 'ნ'], ['ი', 'ვ', 'ლ'], ['ი', 'ვ', 'ნ'], ['კ', 'ვ', 'ი'], ['მ', 'ა', 'ი'], ['მ', 'ა', 'რ'], ['ნ', 'ო', 'ე'], ['ო', 'თ', 'ხ'], ['ო', 'რ', 'შ'], ['ო', 'ქ', 'ტ'], ['პ', 'ა', 'რ'], ['ს', 'ა', 'მ'], ['ს', 'ე', 'ქ'], ['შ', 'ა', 'ბ'], ['წ', 'ი', 'ნ'], ['ხ', 'უ', 'თ'], ['a', 'm'], ['p', 'm'], ['დ', 'ა'], ['ზ', 'ე'], ['ი', 'ს'], ['კ', 'ვ'], ['ს', 'თ'], ['წ', 'თ'], ['წ', 'მ'], [' '], ['\''], ['+'], [','], ['-'], ['.'], ['/'], [':'], [';'], ['@'], ['['], [']'], ['z'], ['|'], ['წ']] }

/-- internal/data/kab.go: `kab_Locale`. -/
def kabLang : LangData := { kabDict with
  knownWords :=
   [['t', 'h', 'i', 's', ' ', 'm', 'i', 'n', 'u', 't', 'e'], ['l', 'a', 's', 't', ' ', 'm', 'o', 'n', 't', 'h'], ['n', 'e', 'x', 't', ' ', 'm', 'o', 'n', 't', 'h'], ['t', 'h', 'i', 's', ' ', 'm', 'o', 'n', 't', 'h'], ['l', 'a', 's', 't', ' ', 'w', 'e', 'e', 'k'], ['l', 'a', 's', 't', ' ', 'y', 'e', 'a', 'r'], ['n', ' ', 't', 'm', 'e', 'd', 'd', 'i', 't'], ['n', 'e', 'x', 't', ' ', 'w', 'e', 'e', 'k'], ['n', 'e', 'x', 't', ' ', 'y', 'e', 'a', 'r'], ['t', 'h', 'i', 's', ' ', 'h', 'o', 'u', 'r'], ['t', 'h', 'i', 's', ' ', 'w', 'e', 'e', 'k'], ['t', 'h', 'i', 's', ' ', 'y', 'e', 'a', 'r'], ['d', 'u', 'g', 'e', 'm', 'b', 'e', 'r'], ['n', 'u', 'n', 'e', 'm', 'b', 'e', 'r'], ['y', 'e', 'n', 'n', 'a', 'y', 'e', 'r'], ['a', 's', 'e', 'g', 'g', 'a', 's'], ['c', 't', 'e', 'm', 'b', 'e', 'r'], ['k', 'r', 'a', 'd', 'a', 's', 's'], ['n', ' ', 't', 'u', 'f', 'a', 't'], ['s', 'd', 'i', 's', 'a', 's', 's'], ['t', 'a', 'm', 'r', 'e', 'c', 't'], ['a', 'z', 'e', 'k', 'k', 'a'], ['i', 'd', 'e', 'l', 'l', 'i'], ['k', 'u', 'z', 'a', 's', 's'], ['m', 'e', 'ɣ', 'r', 'e', 's'], ['s', 'a', 'm', 'a', 's', 's'], ['s', 'a', 'n', 'a', 's', 's'], ['s', 'a', 'y', 'a', 's', 's'], ['t', 'a', 'm', 'e', 'r', 't'], ['t', 'a', 's', 'i', 'n', 't'], ['y', 'a', 'n', 'a', 's', 's'], ['y', 'e', 'b', 'r', 'i', 'r'], ['a', 'g', 'g', 'u', 'r'], ['a', 's', 's', '-', 'a'], ['d', 'd', 'u', 'r', 't'], ['f', 'u', 'r', 'a', 'r'], ['m', 'a', 'y', 'y', 'u'], ['t', 'u', 'b', 'e', 'r'], ['y', 'u', 'l', 'y', 'u'], ['y', 'u', 'n', 'y', 'u'], ['k', 'r', 'a', 'd'], ['s', 'd', 'i', 's'], ['ɣ', 'u', 'c', 't'], ['a', 's', 's'], ['c', 't', 'e'], ['d', 'u', 'g'], ['f', 'u', 'r'], ['g', 'm', 't'], ['k', 'u', 'z'], ['m', 'a', 'y'], ['m', 'e', 'ɣ'], ['n', 'o', 'w'], ['n', 'u', 'n'], ['s', 'a', 'm'], ['s', 'a', 'n'], ['s', 'a', 'y'], ['t', 'u', 'b'], ['u', 't', 'c'], ['y', 'a', 'n'], ['y', 'e', 'b'], ['y', 'e', 'n'], ['y', 'u', 'l'], ['y', 'u', 'n'], ['ɣ', 'u', 'c'], ['a', 'm'], ['p', 'm'], [' '], ['\''], ['+'], [','], ['-'], ['.'], ['/'], [':'], [';'], ['@'], ['['], [']'], ['z'], ['|']] }

/-- internal/data/kam.go: `kam_Locale`. -/
def kamLang : LangData := { kamDict with
  knownWords :=
   [['m', 'w', 'a', 'i', ' ', 'w', 'a', ' ', 'i', 'k', 'u', 'm', 'i', ' ', 'n', 'a', ' ', 'i', 'm', 'w', 'e'], ['m', 'w', 'a', 'i', ' ', 'w', 'a', ' ', 'i', 'k', 'u', 'm', 'i', ' ', 'n', 'a', ' ', 'i', 'l', 'i'], ['m', 'w', 'a', 'i', ' ', 'w', 'a', ' ', 't', 'h', 'a', 'n', 't', 'h', 'a', 't', 'u'], ['m', 'w', 'a', 'i', ' ', 'w', 'a', ' ', 'n', 'y', 'a', 'a', 'n', 'y', 'a'], ['m', 'w', 'a', 'i', ' ', 'w', 'a', ' ', 'k', 'a', 't', 'a', 'n', 'o'], ['m', 'w', 'a', 'i', ' ', 'w', 'a', ' ', 'k', 'a', 't', 'a', 't', 'u'], ['m', 'w', 'a', 'i', ' ', 'w', 'a', ' ', 'm', 'u', 'o', 'n', 'z', 'a'], ['w', 'a', ' ', 'k', 'w', 'a', 'm', 'b', 'i', 'l', 'i', 'l', 'y', 'a'], ['m', 'w', 'a', 'i', ' ', 'w', 'a', ' ', 'i', 'k', 'u', 'm', 'i'], ['m', 'w', 'a', 'i', ' ', 'w', 'a', ' ', 'k', 'e', 'n', 'd', 'a'], ['m', 'w', 'a', 'i', ' ', 'w', 'a', ' ', 'k', 'a', 'n', 'a'], ['m', 'w', 'a', 'i', ' ', 'w', 'a', ' ', 'k', 'e', 'l', 'i'], ['m', 'w', 'a', 'i', ' ', 'w', 'a', ' ', 'm', 'b', 'e', 'e'], ['w', 'a', ' ', 't', 'h', 'a', 'n', 't', 'h', 'a', 't', 'u'], ['t', 'h', 'i', 's', ' ', 'm', 'i', 'n', 'u', 't', 'e'], ['l', 'a', 's', 't', ' ', 'm', 'o', 'n', 't', 'h'], ['n', 'e', 'x', 't', ' ', 'm', 'o', 'n', 't', 'h'], ['t', 'h', 'i', 's', ' ', 'm', 'o', 'n', 't', 'h'], ['i', 'y', 'a', 'k', 'w', 'a', 'k', 'y', 'a'], ['l', 'a', 's', 't', ' ', 'w', 'e', 'e', 'k'], ['l', 'a', 's', 't', ' ', 'y', 'e', 'a', 'r'], ['n', 'e', 'x', 't', ' ', 'w', 'e', 'e', 'k'], ['n', 'e', 'x', 't', ' ', 'y', 'e', 'a', 'r'], ['t', 'h', 'i', 's', ' ', 'h', 'o', 'u', 'r'], ['t', 'h', 'i', 's', ' ', 'w', 'e', 'e', 'k'], ['t', 'h', 'i', 's', ' ', 'y', 'e', 'a', 'r'], ['w', 'a', ' ', 'k', 'a', 't', 'a', 'n', 'o'], ['w', 'a', ' ', 'k', 'a', 't', 'a', 't', 'u'], ['w', 'a', ' ', 'k', 'y', 'u', 'm', 'w', 'a'], ['m', 'u', 't', 'h', 'e', 'n', 'y', 'a'], ['i', 'y', 'a', 'w', 'i', 'o', 'o'], ['n', 'd', 'a', 't', 'i', 'k', 'a'], ['s', 'e', 'k', 'o', 'n', 'd', 'i'], ['u', 'm', 'u', 'n', 't', 'h', 'i'], ['w', 'a', ' ', 'k', 'a', 'n', 'a'], ['w', 'a', ' ', 'k', 'e', 'l', 'i'], ['k', 'y', 'u', 'm', 'w', 'a'], ['m', 'w', 'a', 'k', 'a'], ['i', 'y', 'o', 'o'], ['m', 'w', 'a', 'i'], ['g', 'm', 't'], ['i', 'k', 'l'], ['i', 'k', 'm'], ['i', 'k', 'u'], ['k', 'a', 'n'], ['k', 'e', 'l'], ['k', 'n', 'd'], ['k', 't', 'n'], ['k', 't', 'u'], ['m', 'b', 'e'], ['m', 'o', 'o'], ['n', 'o', 'w'], ['n', 'y', 'a'], ['s', 'a', 'a'], ['t', 'h', 'a'], ['u', 'n', 'i'], ['u', 't', 'c'], ['w', 'k', 'l'], ['w', 'k', 'n'], ['w', 'k', 'w'], ['w', 'k', 'y'], ['w', 't', 'h'], ['w', 't', 'n'], ['w', 't', 'u'], ['a', 'm'], ['p', 'm'], [' '], ['\''], ['+'], [','], ['-'], ['.'], ['/'], [':'], [';'], ['@'], ['['], [']'], ['z'], ['|']] }

/-- internal/data/kde.go: `kde_Locale`. -/
def kdeLang : LangData := { kdeDict with
  knownWords :=
   [['m', 'w', 'e', 'd', 'i', ' ', 'w', 'a', ' ', 'n', 'n', 'y', 'a', 'n', 'o', ' ', 'n', 'a', ' ', 'n', 'n', 'y', 'a', 'n', 'o', ' ', 'n', 'a', ' ', 'm'], ['m', 'w', 'e', 'd', 'i', ' ', 'w', 'a', ' ', 'n', 'n', 'y', 'a', 'n', 'o', ' ', 'n', 'a', ' ', 'n', 'n', 'y', 'a', 'n', 'o', ' ', 'n', 'a', ' ', 'u'], ['l', 'i', 'd', 'u', 'v', 'a', ' ', 'l', 'y', 'a', 'n', 'n', 'y', 'a', 'n', 'o', ' ', 'n', 'a', ' ', 'm', 'a', 'v', 'i', 'l', 'i'], ['m', 'w', 'e', 'd', 'i', ' ', 'w', 'a', ' ', 'n', 'n', 'y', 'a', 'n', 'o', ' ', 'n', 'a', ' ', 'n', 'c', 'h', 'e', 'c', 'h', 'i'], ['l', 'i', 'd', 'u', 'v', 'a', ' ', 'l', 'y', 'a', 'n', 'n', 'y', 'a', 'n', 'o', ' ', 'n', 'a', ' ', 'l', 'i', 'n', 'j', 'i'], ['m', 'w', 'e', 'd', 'i', ' ', 'w', 'a', ' ', 'n', 'n', 'y', 'a', 'n', 'o', ' ', 'n', 'a', ' ', 'm', 'i', 't', 'a', 't', 'u'], ['m', 'w', 'e', 'd', 'i', ' ', 'w', 'a', ' ', 'n', 'n', 'y', 'a', 'n', 'o', ' ', 'n', 'a', ' ', 'm', 'i', 'v', 'i', 'l', 'i'], ['m', 'w', 'e', 'd', 'i', ' ', 'w', 'a', ' ', 'n', 'n', 'y', 'a', 'n', 'o', ' ', 'n', 'a', ' ', 'n', 'n', 'y', 'a', 'n', 'o'], ['m', 'w', 'e', 'd', 'i', ' ', 'w', 'a', ' ', 'n', 'n', 'y', 'a', 'n', 'o', ' ', 'n', 'a', ' ', 'u', 'm', 'o'], ['l', 'i', 'd', 'u', 'v', 'a', ' ', 'l', 'y', 'a', 'n', 'c', 'h', 'e', 'c', 'h', 'i'], ['l', 'i', 'd', 'u', 'v', 'a', ' ', 'l', 'y', 'a', 'n', 'n', 'y', 'a', 'n', 'o'], ['m', 'w', 'e', 'd', 'i', ' ', 'w', 'a', ' ', 'n', 'c', 'h', 'e', 'c', 'h', 'i'], ['m', 'w', 'e', 'd', 'i', ' ', 'w', 'a', ' ', 'n', 'n', 'y', 'a', 'n', 'o'], ['l', 'i', 'd', 'u', 'v', 'a', ' ', 'l', 'i', 't', 'a', 'n', 'd', 'i'], ['l', 'i', 'd', 'u', 'v', 'a', ' ', 'l', 'y', 'a', 'p', 'i', 'l', 'i'], ['l', 'i', 'd', 'u', 'v', 'a', ' ', 'l', 'y', 'a', 't', 'a', 't', 'u'], ['m', 'w', 'e', 'd', 'i', ' ', 'w', 'a', ' ', 'p', 'i', 'l', 'i'], ['m', 'w', 'e', 'd', 'i', ' ', 'w', 'a', ' ', 't', 'a', 't', 'u'], ['m', 'w', 'e', 'd', 'i', ' ', 'n', 't', 'a', 'n', 'd', 'i'], ['t', 'h', 'i', 's', ' ', 'm', 'i', 'n', 'u', 't', 'e'], ['l', 'a', 's', 't', ' ', 'm', 'o', 'n', 't', 'h'], ['n', 'e', 'x', 't', ' ', 'm', 'o', 'n', 't', 'h'], ['t', 'h', 'i', 's', ' ', 'm', 'o', 'n', 't', 'h'], ['l', 'a', 's', 't', ' ', 'w', 'e', 'e', 'k'], ['l', 'a', 's', 't', ' ', 'y', 'e', 'a', 'r'], ['n', 'e', 'x', 't', ' ', 'w', 'e', 'e', 'k'], ['n', 'e', 'x', 't', ' ', 'y', 'e', 'a', 'r'], ['t', 'h', 'i', 's', ' ', 'h', 'o', 'u', 'r'], ['t', 'h', 'i', 's', ' ', 'w', 'e', 'e', 'k'], ['t', 'h', 'i', 's', ' ', 'y', 'e', 'a', 'r'], ['s', 'e', 'k', 'u', 'n', 'd', 'e'], ['d', 'a', 'k', 'i', 'k', 'a'], ['l', 'i', 'h', 'i', 'k', 'u'], ['l', 'i', 'j', 'u', 'm', 'a'], ['c', 'h', 'i', 'l', 'o'], ['m', 'w', 'a', 'k', 'a'], ['m', 'w', 'e', 'd', 'i'], ['n', 'u', 'n', 'd', 'u'], ['l', 'i', 'd', 'o'], ['m', 'u', 'h', 'i'], ['n', 'e', 'l', 'o'], ['a', 'g', 'o'], ['a', 'p', 'r'], ['d', 'e', 's'], ['f', 'e', 'b'], ['g', 'm', 't'], ['j', 'a', 'n'], ['j', 'u', 'l'], ['j', 'u', 'n'], ['l', 'l', '1'], ['l', 'l', '2'], ['l', 'l', '3'], ['l', 'l', '4'], ['l', 'l', '5'], ['l', 'l', '6'], ['l', 'l', '7'], ['m', 'a', 'c'], ['m', 'e', 'i'], ['n', 'o', 'v'], ['n', 'o', 'w'], ['o', 'k', 't'], ['s', 'a', 'a'], ['s', 'e', 'p'], ['u', 't', 'c'], ['a', 'm'], ['p', 'm'], [' '], ['\''], ['+'], [','], ['-'], ['.'], ['/'], [':'], [';'], ['@'], ['['], [']'], ['z'], ['|']] }

/-- internal/data/kea.go: `kea_Locale`. -/
def keaLang : LangData := { keaDict with
  relativeRegexes :=
   [(.seqs [.lit ['a', ' ', 't', 'e', 'n', ' '], .grp 1 (.number), .lit [' ', 's', 'i', 'g', 'u', 'n', 'd', 'u']], [.ref 1, .lit [' ', 's', 'e', 'c', 'o', 'n', 'd', ' ', 'a', 'g', 'o']]),
    (.seqs [.lit ['d', 'i', ' ', 'l', 'i', ' '], .grp 1 (.number), .lit [' ', 's', 'i', 'g', 'u', 'n', 'd', 'u']], [.lit ['i', 'n', ' '], .ref 1, .lit [' ', 's', 'e', 'c', 'o', 'n', 'd']]),
    (.seqs [.lit ['a', ' ', 't', 'e', 'n', ' '], .grp 1 (.number), .lit [' ', 'm', 'i', 'n', 'u', 't', 'u']], [.ref 1, .lit [' ', 'm', 'i', 'n', 'u', 't', 'e', ' ', 'a', 'g', 'o']]),
    (.seqs [.lit ['a', ' ', 't', 'e', 'n', ' '], .grp 1 (.number), .lit [' ', 's', 'i', 'm', 'a', 'n', 'a']], [.ref 1, .lit [' ', 'w', 'e', 'e', 'k', ' ', 'a', 'g', 'o']]),
    (.seqs [.lit ['d', 'i', ' ', 'l', 'i', ' '], .grp 1 (.number), .lit [' ', 'm', 'i', 'n', 'u', 't', 'u']], [.lit ['i', 'n', ' '], .ref 1, .lit [' ', 'm', 'i', 'n', 'u', 't', 'e']]),
    (.seqs [.lit ['d', 'i', ' ', 'l', 'i', ' '], .grp 1 (.number), .lit [' ', 's', 'i', 'm', 'a', 'n', 'a']], [.lit ['i', 'n', ' '], .ref 1, .lit [' ', 'w', 'e', 'e', 'k']]),
    (.seqs [.lit ['a', ' ', 't', 'e', 'n', ' '], .grp 1 (.number), .lit [' ', 'a', 'n', 'u']], [.ref 1, .lit [' ', 'y', 'e', 'a', 'r', ' ', 'a', 'g', 'o']]),
    (.seqs [.lit ['a', ' ', 't', 'e', 'n', ' '], .grp 1 (.number), .lit [' ', 'd', 'i', 'a']], [.ref 1, .lit [' ', 'd', 'a', 'y', ' ', 'a', 'g', 'o']]),
    (.seqs [.lit ['a', ' ', 't', 'e', 'n', ' '], .grp 1 (.number), .lit [' ', 'm', 'e', 's']], [.ref 1, .lit [' ', 'm', 'o', 'n', 't', 'h', ' ', 'a', 'g', 'o']]),
    (.seqs [.lit ['a', ' ', 't', 'e', 'n', ' '], .grp 1 (.number), .lit [' ', 'm', 'i', 'n']], [.ref 1, .lit [' ', 'm', 'i', 'n', 'u', 't', 'e', ' ', 'a', 'g', 'o']]),
    (.seqs [.lit ['a', ' ', 't', 'e', 'n', ' '], .grp 1 (.number), .lit [' ', 'o', 'r', 'a']], [.ref 1, .lit [' ', 'h', 'o', 'u', 'r', ' ', 'a', 'g', 'o']]),
    (.seqs [.lit ['a', ' ', 't', 'e', 'n', ' '], .grp 1 (.number), .lit [' ', 's', 'i', 'g']], [.ref 1, .lit [' ', 's', 'e', 'c', 'o', 'n', 'd', ' ', 'a', 'g', 'o']]),
    (.seqs [.lit ['a', ' ', 't', 'e', 'n', ' '], .grp 1 (.number), .lit [' ', 's', 'i', 'm']], [.ref 1, .lit [' ', 'w', 'e', 'e', 'k', ' ', 'a', 'g', 'o']]),
    (.seqs [.lit ['d', 'i', ' ', 'l', 'i', ' '], .grp 1 (.number), .lit [' ', 'a', 'n', 'u']], [.lit ['i', 'n', ' '], .ref 1, .lit [' ', 'y', 'e', 'a', 'r']]),
    (.seqs [.lit ['d', 'i', ' ', 'l', 'i', ' '], .grp 1 (.number), .lit [' ', 'd', 'i', 'a']], [.lit ['i', 'n', ' '], .ref 1, .lit [' ', 'd', 'a', 'y']]),
    (.seqs [.lit ['d', 'i', ' ', 'l', 'i', ' '], .grp 1 (.number), .lit [' ', 'm', 'e', 's']], [.lit ['i', 'n', ' '], .ref 1, .lit [' ', 'm', 'o', 'n', 't', 'h']]),
    (.seqs [.lit ['d', 'i', ' ', 'l', 'i', ' '], .grp 1 (.number), .lit [' ', 'm', 'i', 'n']], [.lit ['i', 'n', ' '], .ref 1, .lit [' ', 'm', 'i', 'n', 'u', 't', 'e']]),
    (.seqs [.lit ['d', 'i', ' ', 'l', 'i', ' '], .grp 1 (.number), .lit [' ', 'o', 'r', 'a']], [.lit ['i', 'n', ' '], .ref 1, .lit [' ', 'h', 'o', 'u', 'r']]),
    (.seqs [.lit ['d', 'i', ' ', 'l', 'i', ' '], .grp 1 (.number), .lit [' ', 's', 'i', 'g']], [.lit ['i', 'n', ' '], .ref 1, .lit [' ', 's', 'e', 'c', 'o', 'n', 'd']]),
    (.seqs [.lit ['d', 'i', ' ', 'l', 'i', ' '], .grp 1 (.number), .lit [' ', 's', 'i', 'm']], [.lit ['i', 'n', ' '], .ref 1, .lit [' ', 'w', 'e', 'e', 'k']]),
    (.seqs [.lit ['a', ' ', 't', 'e', 'n', ' '], .grp 1 (.number), .lit [' ', 'm']], [.ref 1, .lit [' ', 'm', 'i', 'n', 'u', 't', 'e', ' ', 'a', 'g', 'o']]),
    (.seqs [.lit ['a', ' ', 't', 'e', 'n', ' '], .grp 1 (.number), .lit [' ', 's']], [.ref 1, .lit [' ', 's', 'e', 'c', 'o', 'n', 'd', ' ', 'a', 'g', 'o']]),
    (.seqs [.lit ['d', 'i', ' ', 'l', 'i', ' '], .grp 1 (.number), .lit [' ', 'm']], [.lit ['i', 'n', ' '], .ref 1, .lit [' ', 'm', 'i', 'n', 'u', 't', 'e']]),
    (.seqs [.lit ['d', 'i', ' ', 'l', 'i', ' '], .grp 1 (.number), .lit [' ', 's']], [.lit ['i', 'n', ' '], .ref 1, .lit [' ', 's', 'e', 'c', 'o', 'n', 'd']])],
  rxCombined := some (.seqs [.grp 1 (.alts [.bos, .cls true [.letter, .mark, .digit], .lit ['_']]), .grp 2 (.alts [.seqs [.lit ['a', ' ', 't', 'e', 'n', ' '], .number, .lit [' ', 's', 'i', 'g', 'u', 'n', 'd', 'u']], .seqs [.lit ['d', 'i', ' ', 'l', 'i', ' '], .number, .lit [' ', 's', 'i', 'g', 'u', 'n', 'd', 'u']], .seqs [.lit ['a', ' ', 't', 'e', 'n', ' '], .number, .lit [' ', 'm', 'i', 'n', 'u', 't', 'u']], .seqs [.lit ['a', ' ', 't', 'e', 'n', ' '], .number, .lit [' ', 's', 'i', 'm', 'a', 'n', 'a']], .seqs [.lit ['d', 'i', ' ', 'l', 'i', ' '], .number, .lit [' ', 'm', 'i', 'n', 'u', 't', 'u']], .seqs [.lit ['d', 'i', ' ', 'l', 'i', ' '], .number, .lit [' ', 's', 'i', 'm', 'a', 'n', 'a']], .seqs [.lit ['a', ' ', 't', 'e', 'n', ' '], .number, .lit [' ', 'a', 'n', 'u']], .seqs [.lit ['a', ' ', 't', 'e', 'n', ' '], .number, .lit [' ', 'd', 'i', 'a']], .seqs [.lit ['a', ' ', 't', 'e', 'n', ' '], .number, .lit [' ', 'm', 'e', 's']], .seqs [.lit ['a', ' ', 't', 'e', 'n', ' '], .number, .lit [' ', 'm', 'i', 'n']], .seqs [.lit ['a', ' ', 't', 'e', 'n', ' '], .number, .lit [' ', 'o', 'r', 'a']], .seqs [.lit ['a', ' ', 't', 'e', 'n', ' '], .number, .lit [' ', 's', 'i', 'g']], .seqs [.lit ['a', ' ', 't', 'e', 'n', ' '], .number, .lit [' ', 's', 'i', 'm']], .seqs [.lit ['d', 'i', ' ', 'l', 'i', ' '], .number, .lit [' ', 'a', 'n', 'u']], .seqs [.lit ['d', 'i', ' ', 'l', 'i', ' '], .number, .lit [' ', 'd', 'i', 'a']], .seqs [.lit ['d', 'i', ' ', 'l', 'i', ' '], .number, .lit [' ', 'm', 'e', 's']], .seqs [.lit ['d', 'i', ' ', 'l', 'i', ' '], .number, .lit [' ', 'm', 'i', 'n']], .seqs [.lit ['d', 'i', ' ', 'l', 'i', ' '], .number, .lit [' ', 'o', 'r', 'a']], .seqs [.lit ['d', 'i', ' ', 'l', 'i', ' '], .number, .lit [' ', 's', 'i', 'g']], .seqs [.lit ['d', 'i', ' ', 'l', 'i', ' '], .number, .lit [' ', 's', 'i', 'm']], .seqs [.lit ['a', ' ', 't', 'e', 'n', ' '], .number, .lit [' ', 'm']], .seqs [.lit ['a', ' ', 't', 'e', 'n', ' '], .number, .lit [' ', 's']], .seqs [.lit ['d', 'i', ' ', 'l', 'i', ' '], .number, .lit [' ', 'm']], .seqs [.lit ['d', 'i', ' ', 'l', 'i', ' '], .number, .lit [' ', 's']]]), .grp 3 (.alts [.eos, .cls true [.letter, .mark, .digit], .lit ['_']])], 3),
  rxExact := some (.seqs [.bos, .grp 1 (.alts [.seqs [.lit ['a', ' ', 't', 'e', 'n', ' '], .number, .lit [' ', 's', 'i', 'g', 'u', 'n', 'd', 'u']], .seqs [.lit ['d', 'i', ' ', 'l', 'i', ' '], .number, .lit [' ', 's', 'i', 'g', 'u', 'n', 'd', 'u']], .seqs [.lit ['a', ' ', 't', 'e', 'n', ' '], .number, .lit [' ', 'm', 'i', 'n', 'u', 't', 'u']], .seqs [.lit ['a', ' ', 't', 'e', 'n', ' '], .number, .lit [' ', 's', 'i', 'm', 'a', 'n', 'a']], .seqs [.lit ['d', 'i', ' ', 'l', 'i', ' '], .number, .lit [' ', 'm', 'i', 'n', 'u', 't', 'u']], .seqs [.lit ['d', 'i', ' ', 'l', 'i', ' '], .number, .lit [' ', 's', 'i', 'm', 'a', 'n', 'a']], .seqs [.lit ['a', ' ', 't', 'e', 'n', ' '], .number, .lit [' ', 'a', 'n', 'u']], .seqs [.lit ['a', ' ', 't', 'e', 'n', ' '], .number, .lit [' ', 'd', 'i', 'a']], .seqs [.lit ['a', ' ', 't', 'e', 'n', ' '], .number, .lit [' ', 'm', 'e', 's']], .seqs [.lit ['a', ' ', 't', 'e', 'n', ' '], .number, .lit [' ', 'm', 'i', 'n']], .seqs [.lit ['a', ' ', 't', 'e', 'n', ' '], .number, .lit [' ', 'o', 'r', 'a']], .seqs [.lit ['a', ' ', 't', 'e', 'n', ' '], .number, .lit [' ', 's', 'i', 'g']], .seqs [.lit ['a', ' ', 't', 'e', 'n', ' '], .number, .lit [' ', 's', 'i', 'm']], .seqs [.lit ['d', 'i', ' ', 'l', 'i', ' '], .number, .lit [' ', 'a', 'n', 'u']], .seqs [.lit ['d', 'i', ' ', 'l', 'i', ' '], .number, .lit [' ', 'd', 'i', 'a']], .seqs [.lit ['d', 'i', ' ', 'l', 'i', ' '], .number, .lit [' ', 'm', 'e', 's']], .seqs [.lit ['d', 'i', ' ', 'l', 'i', ' '], .number, .lit [' ', 'm', 'i', 'n']], .seqs [.lit ['d', 'i', ' ', 'l', 'i', ' '], .number, .lit [' ', 'o', 'r', 'a']], .seqs [.lit ['d', 'i', ' ', 'l', 'i', ' '], .number, .lit [' ', 's', 'i', 'g']], .seqs [.lit ['d', 'i', ' ', 'l', 'i', ' '], .number, .lit [' ', 's', 'i', 'm']], .seqs [.lit ['a', ' ', 't', 'e', 'n', ' '], .number, .lit [' ', 'm']], .seqs [.lit ['a', ' ', 't', 'e', 'n', ' '], .number, .lit [' ', 's']], .seqs [.lit ['d', 'i', ' ', 'l', 'i', ' '], .number, .lit [' ', 'm']], .seqs [.lit ['d', 'i', ' ', 'l', 'i', ' '], .number, .lit [' ', 's']]]), .eos]),
  knownWords :=
   [['p', 'r', 'o', 's', 'i', 'm', 'u', ' ', 's', 'i', 'm', 'a', 'n', 'a'], ['s', 'i', 'm', 'a', 'n', 'a', ' ', 'p', 'a', 's', 'a', 'd', 'u'], ['e', 's', ' ', 's', 'i', 'm', 'a', 'n', 'a', ' ', 'l', 'i'], ['s', 'i', 'g', 'u', 'n', 'd', 'a', '-', 'f', 'e', 'r', 'a'], ['k', 'u', 'a', 'r', 't', 'a', '-', 'f', 'e', 'r', 'a'], ['p', 'r', 'o', 's', 'i', 'm', 'u', ' ', 'a', 'n', 'u'], ['p', 'r', 'o', 's', 'i', 'm', 'u', ' ', 'm', 'e', 's'], ['t', 'h', 'i', 's', ' ', 'm', 'i', 'n', 'u', 't', 'e'], ['a', 'n', 'u', ' ', 'p', 'a', 's', 'a', 'd', 'u'], ['k', 'i', 'n', 't', 'a', '-', 'f', 'e', 'r', 'a'], ['m', 'e', 's', ' ', 'p', 'a', 's', 'a', 'd', 'u'], ['s', 'e', 's', 't', 'a', '-', 'f', 'e', 'r', 'a'], ['t', 'e', 'r', 's', 'a', '-', 'f', 'e', 'r', 'a'], ['e', 's', ' ', 'a', 'n', 'u', ' ', 'l', 'i'], ['e', 's', ' ', 'm', 'e', 's', ' ', 'l', 'i'], ['t', 'h', 'i', 's', ' ', 'h', 'o', 'u', 'r'], ['d', 'i', 'z', 'e', 'n', 'b', 'r', 'u'], ['n', 'u', 'v', 'e', 'n', 'b', 'r', 'u'], ['s', 'e', 't', 'e', 'n', 'b', 'r', 'u'], ['d', 'u', 'm', 'i', 'n', 'g', 'u'], ['f', 'e', 'b', 'r', 'e', 'r', 'u'], ['s', 'i', 'g', 'u', 'n', 'd', 'u'], ['a', 'g', 'o', 's', 't', 'u'], ['j', 'a', 'n', 'e', 'r', 'u'], ['m', 'i', 'n', 'u', 't', 'u'], ['o', 't', 'u', 'b', 'r', 'u'], ['s', 'a', 'b', 'a', 'd', 'u'], ['s', 'i', 'm', 'a', 'n', 'a'], ['a', 'b', 'r', 'i', 'l'], ['j', 'u', 'l', 'h', 'u'], ['j', 'u', 'n', 'h', 'u'], ['m', 'a', 'n', 'h', 'a'], ['m', 'a', 'r', 's', 'u'], ['m', 'a', 'i', 'u'], ['o', 'n', 't', 'i'], ['a', 'b', 'r'], ['a', 'g', 'o'], ['a', 'n', 'u'], ['d', 'i', 'a'], ['d', 'i', 'z'], ['d', 'u', 'm'], ['f', 'e', 'b'], ['g', 'm', 't'], ['j', 'a', 'n'], ['j', 'u', 'l'], ['j', 'u', 'n'], ['k', 'i', 'n'], ['k', 'u', 'a'], ['m', 'a', 'i'], ['m', 'a', 'r'], ['m', 'e', 's'], ['m', 'i', 'n'], ['n', 'o', 'w'], ['n', 'u', 'v'], ['o', 'j', 'i'], ['o', 'r', 'a'], ['o', 't', 'u'], ['s', 'a', 'b'], ['s', 'e', 's'], ['s', 'e', 't'], ['s', 'i', 'g'], ['s', 'i', 'm'], ['t', 'e', 'r'], ['u', 't', 'c'], ['a', 'm'], ['p', 'm'], [' '], ['\''], ['+'], [','], ['-'], ['.'], ['/'], [':'], [';'], ['@'], ['['], [']'], ['h'], ['m'], ['s'], ['z'], ['|']] }

/-- internal/data/khq.go: `khq_Locale`. -/
def khqLang : LangData := { khqDict with
  knownWords :=
   [['t', 'h', 'i', 's', ' ', 'm', 'i', 'n', 'u', 't', 'e'], ['l', 'a', 's', 't', ' ', 'm', 'o', 'n', 't', 'h'], ['n', 'e', 'x', 't', ' ', 'm', 'o', 'n', 't', 'h'], ['t', 'h', 'i', 's', ' ', 'm', 'o', 'n', 't', 'h'], ['a', 'l', 'h', 'a', 'm', 'i', 'i', 's', 'a'], ['d', 'e', 'e', 's', 'a', 'n', 'b', 'u', 'r'], ['f', 'e', 'e', 'w', 'i', 'r', 'i', 'y', 'e'], ['l', 'a', 's', 't', ' ', 'w', 'e', 'e', 'k'], ['l', 'a', 's', 't', ' ', 'y', 'e', 'a', 'r'], ['n', 'e', 'x', 't', ' ', 'w', 'e', 'e', 'k'], ['n', 'e', 'x', 't', ' ', 'y', 'e', 'a', 'r'], ['n', 'o', 'o', 'w', 'a', 'n', 'b', 'u', 'r'], ['s', 'e', 'k', 't', 'a', 'n', 'b', 'u', 'r'], ['t', 'h', 'i', 's', ' ', 'h', 'o', 'u', 'r'], ['t', 'h', 'i', 's', ' ', 'w', 'e', 'e', 'k'], ['t', 'h', 'i', 's', ' ', 'y', 'e', 'a', 'r'], ['o', 'k', 't', 'o', 'o', 'b', 'u', 'r'], ['a', 's', 's', 'a', 'b', 'd', 'u'], ['a', 't', 'a', 'l', 'a', 't', 'a'], ['z', 'a', 'n', 'w', 'i', 'y', 'e'], ['a', 'd', 'd', 'u', 'h', 'a'], ['a', 'l', 'a', 'r', 'b', 'a'], ['a', 'l', 'h', 'a', 'd', 'i'], ['a', 'l', 'j', 'u', 'm', 'a'], ['a', 'l', 'u', 'u', 'l', 'a'], ['a', 'w', 'i', 'r', 'i', 'l'], ['m', 'i', 'n', 'i', 't', 'i'], ['a', 't', 'i', 'n', 'i'], ['g', 'u', 'u', 'r', 'u'], ['h', 'a', 'n', 'd', 'u'], ['j', 'a', 'a', 'r', 'i'], ['j', 'i', 'i', 'r', 'i'], ['m', 'a', 'r', 's', 'i'], ['z', 'u', 'w', 'e', 'ŋ'], ['z', 'u', 'y', 'y', 'e'], ['h', 'e', 'b', 'u'], ['m', 'i', 't', 'i'], ['s', 'u', 'b', 'a'], ['a', 'l', 'a'], ['a', 'l', 'h'], ['a', 'l', 'j'], ['a', 'l', 'm'], ['a', 's', 's'], ['a', 't', 'a'], ['a', 't', 'i'], ['a', 'w', 'i'], ['d', 'e', 'e'], ['f', 'e', 'e'], ['g', 'm', 't'], ['h', 'o', 'o'], ['m', 'a', 'r'], ['n', 'o', 'o'], ['n', 'o', 'w'], ['o', 'k', 't'], ['s', 'e', 'k'], ['u', 't', 'c'], ['z', 'a', 'n'], ['z', 'u', 'w'], ['z', 'u', 'y'], ['a', 'm'], ['b', 'i'], ['m', 'e'], ['p', 'm'], ['u', 't'], [' '], ['\''], ['+'], [','], ['-'], ['.'], ['/'], [':'], [';'], ['@'], ['['], [']'], ['z'], ['|']] }

/-- internal/data/ki.go: `ki_Locale`. -/
def kiLang : LangData := { kiDict with
  knownWords :=
   [['m', 'w', 'e', 'r', 'e', ' ', 'w', 'a', ' ', 'i', 'k', 'u', 'm', 'i', ' ', 'n', 'a', ' ', 'u', 'm', 'w', 'e'], ['m', 'w', 'e', 'r', 'e', ' ', 'w', 'a', ' ', 'g', 'a', 't', 'a', 'n', 'd', 'a', 't', 'u'], ['m', 'w', 'e', 'r', 'e', ' ', 'w', 'a', ' ', 'm', 'u', 'g', 'w', 'a', 'n', 'j', 'a'], ['m', 'w', 'e', 'r', 'e', ' ', 'w', 'a', ' ', 'g', 'a', 't', 'a', 'n', 'o'], ['m', 'w', 'e', 'r', 'e', ' ', 'w', 'a', ' ', 'g', 'a', 't', 'a', 't', 'u'], ['m', 'w', 'e', 'r', 'e', ' ', 'w', 'a', ' ', 'k', 'a', 'n', 'a', 'n', 'a'], ['m', 'w', 'e', 'r', 'e', ' ', 'w', 'a', ' ', 'i', 'k', 'u', 'm', 'i'], ['m', 'w', 'e', 'r', 'e', ' ', 'w', 'a', ' ', 'k', 'e', 'n', 'd', 'a'], ['m', 'w', 'e', 'r', 'e', ' ', 'w', 'a', ' ', 'k', 'a', 'n', 'a'], ['m', 'w', 'e', 'r', 'e', ' ', 'w', 'a', ' ', 'k', 'e', 'r', 'i'], ['t', 'h', 'i', 's', ' ', 'm', 'i', 'n', 'u', 't', 'e'], ['l', 'a', 's', 't', ' ', 'm', 'o', 'n', 't', 'h'], ['n', 'e', 'x', 't', ' ', 'm', 'o', 'n', 't', 'h'], ['n', 'j', 'u', 'm', 'a', 'm', 'o', 't', 'h', 'i'], ['t', 'h', 'i', 's', ' ', 'm', 'o', 'n', 't', 'h'], ['l', 'a', 's', 't', ' ', 'w', 'e', 'e', 'k'], ['l', 'a', 's', 't', ' ', 'y', 'e', 'a', 'r'], ['n', 'd', 'i', 't', 'h', 'e', 'm', 'b', 'a'], ['n', 'e', 'x', 't', ' ', 'w', 'e', 'e', 'k'], ['n', 'e', 'x', 't', ' ', 'y', 'e', 'a', 'r'], ['n', 'j', 'u', 'm', 'a', 't', 'a', 'n', 'a'], ['n', 'j', 'u', 'm', 'a', 't', 'a', 't', 'u'], ['t', 'h', 'i', 's', ' ', 'h', 'o', 'u', 'r'], ['t', 'h', 'i', 's', ' ', 'w', 'e', 'e', 'k'], ['t', 'h', 'i', 's', ' ', 'y', 'e', 'a', 'r'], ['a', 'r', 'a', 'm', 'i', 't', 'h', 'i'], ['h', 'w', 'a', 'i', '-', 'i', 'n', 'i'], ['m', 'u', 't', 'h', 'e', 'n', 'y', 'a'], ['n', 'j', 'e', 'n', 'u', 'a', 'r', 'i'], ['n', 'j', 'u', 'm', 'a', 'i', 'n', 'e'], ['n', 'd', 'a', 'g', 'i', 'k', 'a'], ['s', 'e', 'k', 'u', 'n', 'd', 'e'], ['k', 'i', 'r', 'o', 'k', 'o'], ['k', 'i', 'u', 'm', 'i', 'a'], ['n', 'j', 'u', 'm', 'a', 'a'], ['u', 'm', 'u', 't', 'h', 'i'], ['i', 't', 'h', 'a', 'a'], ['m', 'w', 'a', 'k', 'a'], ['m', 'w', 'e', 'r', 'i'], ['r', 'u', 'c', 'i', 'u'], ['a', 'r', 't'], ['d', 'i', 't'], ['g', 'm', 't'], ['i', 'r', 'a'], ['j', 'e', 'n'], ['k', 'm', 'a'], ['n', 'm', 'a'], ['n', 'm', 'm'], ['n', 'm', 'n'], ['n', 'm', 't'], ['n', 'o', 'w'], ['n', 't', 't'], ['u', 't', 'c'], ['w', 'g', 't'], ['w', 'i', 'k'], ['w', 'k', 'd'], ['w', 'k', 'n'], ['w', 'k', 'r'], ['w', 'm', 'j'], ['w', 'm', 'w'], ['w', 'n', 'n'], ['w', 't', 'd'], ['w', 't', 'n'], ['a', 'm'], ['p', 'm'], [' '], ['\''], ['+'], [','], ['-'], ['.'], ['/'], [':'], [';'], ['@'], ['['], [']'], ['z'], ['|']] }

/-- internal/data/kk.go: `kk_Locale`. -/
def kkLang : LangData := { kkDict with
  relativeRegexes :=
   [(.seqs [.grp 1 (.number), .lit [' '], .cls false [.rng 'С' 'С', .rng 'с' 'с', .rng 'ᲃ' 'ᲃ'], .cls false [.rng 'Е' 'Е', .rng 'е' 'е'], .cls false [.rng 'К' 'К', .rng 'к' 'к'], .cls false [.rng 'У' 'У', .rng 'у' 'у'], .cls false [.rng 'Н' 'Н', .rng 'н' 'н'], .cls false [.rng 'Д' 'Д', .rng 'д' 'д', .rng 'ᲁ' 'ᲁ'], .cls false [.rng 'Т' 'Т', .rng 'т' 'т', .rng 'ᲄ' 'ᲄ', .rng 'ᲅ' 'ᲅ'], .cls false [.rng 'А' 'А', .rng 'а' 'а'], .cls false [.rng 'Н' 'Н', .rng 'н' 'н'], .lit [' '], .cls false [.rng 'К' 'К', .rng 'к' 'к'], .cls false [.rng 'Е' 'Е', .rng 'е' 'е'], .cls false [.rng 'И' 'И', .rng 'и' 'и'], .cls false [.rng 'І' 'І', .rng 'і' 'і'], .cls false [.rng 'Н' 'Н', .rng 'н' 'н']], [.lit ['i', 'n', ' '], .ref 1, .lit [' ', 's', 'e', 'c', 'o', 'n', 'd']]),
    (.seqs [.grp 1 (.number), .lit [' '], .cls false [.rng 'М' 'М', .rng 'м' 'м'], .cls false [.rng 'И' 'И', .rng 'и' 'и'], .cls false [.rng 'Н' 'Н', .rng 'н' 'н'], .cls false [.rng 'У' 'У', .rng 'у' 'у'], .cls false [.rng 'Т' 'Т', .rng 'т' 'т', .rng 'ᲄ' 'ᲄ', .rng 'ᲅ' 'ᲅ'], .cls false [.rng 'Т' 'Т', .rng 'т' 'т', .rng 'ᲄ' 'ᲄ', .rng 'ᲅ' 'ᲅ'], .cls false [.rng 'А' 'А', .rng 'а' 'а'], .cls false [.rng 'Н' 'Н', .rng 'н' 'н'], .lit [' '], .cls false [.rng 'К' 'К', .rng 'к' 'к'], .cls false [.rng 'Е' 'Е', .rng 'е' 'е'], .cls false [.rng 'И' 'И', .rng 'и' 'и'], .cls false [.rng 'І' 'І', .rng 'і' 'і'], .cls false [.rng 'Н' 'Н', .rng 'н' 'н']], [.lit ['i', 'n', ' '], .ref 1, .lit [' ', 'm', 'i', 'n', 'u', 't', 'e']]),
    (.seqs [.grp 1 (.number), .lit [' '], .cls false [.rng 'С' 'С', .rng 'с' 'с', .rng 'ᲃ' 'ᲃ'], .cls false [.rng 'А' 'А', .rng 'а' 'а'], .cls false [.rng 'Ғ' 'Ғ', .rng 'ғ' 'ғ'], .cls false [.rng 'А' 'А', .rng 'а' 'а'], .cls false [.rng 'Т' 'Т', .rng 'т' 'т', .rng 'ᲄ' 'ᲄ', .rng 'ᲅ' 'ᲅ'], .cls false [.rng 'Т' 'Т', .rng 'т' 'т', .rng 'ᲄ' 'ᲄ', .rng 'ᲅ' 'ᲅ'], .cls false [.rng 'А' 'А', .rng 'а' 'а'], .cls false [.rng 'Н' 'Н', .rng 'н' 'н'], .lit [' '], .cls false [.rng 'К' 'К', .rng 'к' 'к'], .cls false [.rng 'Е' 'Е', .rng 'е' 'е'], .cls false [.rng 'И' 'И', .rng 'и' 'и'], .cls false [.rng 'І' 'І', .rng 'і' 'і'], .cls false [.rng 'Н' 'Н', .rng 'н' 'н']], [.lit ['i', 'n', ' '], .ref 1, .lit [' ', 'h', 'o', 'u', 'r']]),
    (.seqs [.grp 1 (.number), .lit [' '], .cls false [.rng 'А' 'А', .rng 'а' 'а'], .cls false [.rng 'П' 'П', .rng 'п' 'п'], .cls false [.rng 'Т' 'Т', .rng 'т' 'т', .rng 'ᲄ' 'ᲄ', .rng 'ᲅ' 'ᲅ'], .cls false [.rng 'А' 'А', .rng 'а' 'а'], .cls false [.rng 'Д' 'Д', .rng 'д' 'д', .rng 'ᲁ' 'ᲁ'], .cls false [.rng 'А' 'А', .rng 'а' 'а'], .cls false [.rng 'Н' 'Н', .rng 'н' 'н'], .lit [' '], .cls false [.rng 'К' 'К', .rng 'к' 'к'], .cls false [.rng 'Е' 'Е', .rng 'е' 'е'], .cls false [.rng 'И' 'И', .rng 'и' 'и'], .cls false [.rng 'І' 'І', .rng 'і' 'і'], .cls false [.rng 'Н' 'Н', .rng 'н' 'н']], [.lit ['i', 'n', ' '], .ref 1, .lit [' ', 'w', 'e', 'e', 'k']]),
    (.seqs [.grp 1 (.number), .lit [' '], .cls false [.rng 'Ж' 'Ж', .rng 'ж' 'ж'], .cls false [.rng 'Ы' 'Ы', .rng 'ы' 'ы'], .cls false [.rng 'Л' 'Л', .rng 'л' 'л'], .cls false [.rng 'Д' 'Д', .rng 'д' 'д', .rng 'ᲁ' 'ᲁ'], .cls false [.rng 'А' 'А', .rng 'а' 'а'], .cls false [.rng 'Н' 'Н', .rng 'н' 'н'], .lit [' '], .cls false [.rng 'К' 'К', .rng 'к' 'к'], .cls false [.rng 'Е' 'Е', .rng 'е' 'е'], .cls false [.rng 'И' 'И', .rng 'и' 'и'], .cls false [.rng 'І' 'І', .rng 'і' 'і'], .cls false [.rng 'Н' 'Н', .rng 'н' 'н']], [.lit ['i', 'n', ' '], .ref 1, .lit [' ', 'y', 'e', 'a', 'r']]),
    (.seqs [.grp 1 (.number), .lit [' '], .cls false [.rng 'К' 'К', .rng 'к' 'к'], .cls false [.rng 'Ү' 'Ү', .rng 'ү' 'ү'], .cls false [.rng 'Н' 'Н', .rng 'н' 'н'], .cls false [.rng 'Н' 'Н', .rng 'н' 'н'], .cls false [.rng 'Е' 'Е', .rng 'е' 'е'], .cls false [.rng 'Н' 'Н', .rng 'н' 'н'], .lit [' '], .cls false [.rng 'К' 'К', .rng 'к' 'к'], .cls false [.rng 'Е' 'Е', .rng 'е' 'е'], .cls false [.rng 'И' 'И', .rng 'и' 'и'], .cls false [.rng 'І' 'І', .rng 'і' 'і'], .cls false [.rng 'Н' 'Н', .rng 'н' 'н']], [.lit ['i', 'n', ' '], .ref 1, .lit [' ', 'd', 'a', 'y']]),
    (.seqs [.grp 1 (.number), .lit [' '], .cls false [.rng 'С' 'С', .rng 'с' 'с', .rng 'ᲃ' 'ᲃ'], .cls false [.rng 'Е' 'Е', .rng 'е' 'е'], .cls false [.rng 'К' 'К', .rng 'к' 'к'], .cls false [.rng 'У' 'У', .rng 'у' 'у'], .cls false [.rng 'Н' 'Н', .rng 'н' 'н'], .cls false [.rng 'Д' 'Д', .rng 'д' 'д', .rng 'ᲁ' 'ᲁ'], .lit [' '], .cls false [.rng 'Б' 'Б', .rng 'б' 'б'], .cls false [.rng 'Ұ' 'Ұ', .rng 'ұ' 'ұ'], .cls false [.rng 'Р' 'Р', .rng 'р' 'р'], .cls false [.rng 'Ы' 'Ы', .rng 'ы' 'ы'], .cls false [.rng 'Н' 'Н', .rng 'н' 'н']], [.ref 1, .lit [' ', 's', 'e', 'c', 'o', 'n', 'd', ' ', 'a', 'g', 'o']]),
    (.seqs [.grp 1 (.number), .lit [' '], .cls false [.rng 'А' 'А', .rng 'а' 'а'], .cls false [.rng 'И' 'И', .rng 'и' 'и'], .cls false [.rng 'Д' 'Д', .rng 'д' 'д', .rng 'ᲁ' 'ᲁ'], .cls false [.rng 'А' 'А', .rng 'а' 'а'], .cls false [.rng 'Н' 'Н', .rng 'н' 'н'], .lit [' '], .cls false [.rng 'К' 'К', .rng 'к' 'к'], .cls false [.rng 'Е' 'Е', .rng 'е' 'е'], .cls false [.rng 'И' 'И', .rng 'и' 'и'], .cls false [.rng 'І' 'І', .rng 'і' 'і'], .cls false [.rng 'Н' 'Н', .rng 'н' 'н']], [.lit ['i', 'n', ' '], .ref 1, .lit [' ', 'm', 'o', 'n', 't', 'h']]),
    (.seqs [.grp 1 (.number), .lit [' '], .cls false [.rng 'М' 'М', .rng 'м' 'м'], .cls false [.rng 'И' 'И', .rng 'и' 'и'], .cls false [.rng 'Н' 'Н', .rng 'н' 'н'], .cls false [.rng 'У' 'У', .rng 'у' 'у'], .cls false [.rng 'Т' 'Т', .rng 'т' 'т', .rng 'ᲄ' 'ᲄ', .rng 'ᲅ' 'ᲅ'], .lit [' '], .cls false [.rng 'Б' 'Б', .rng 'б' 'б'], .cls false [.rng 'Ұ' 'Ұ', .rng 'ұ' 'ұ'], .cls false [.rng 'Р' 'Р', .rng 'р' 'р'], .cls false [.rng 'Ы' 'Ы', .rng 'ы' 'ы'], .cls false [.rng 'Н' 'Н', .rng 'н' 'н']], [.ref 1, .lit [' ', 'm', 'i', 'n', 'u', 't', 'e', ' ', 'a', 'g', 'o']]),
    (.seqs [.grp 1 (.number), .lit [' '], .cls false [.rng 'С' 'С', .rng 'с' 'с', .rng 'ᲃ' 'ᲃ'], .cls false [.rng 'А' 'А', .rng 'а' 'а'], .cls false [.rng 'Ғ' 'Ғ', .rng 'ғ' 'ғ'], .cls false [.rng 'А' 'А', .rng 'а' 'а'], .cls false [.rng 'Т' 'Т', .rng 'т' 'т', .rng 'ᲄ' 'ᲄ', .rng 'ᲅ' 'ᲅ'], .lit [' '], .cls false [.rng 'Б' 'Б', .rng 'б' 'б'], .cls false [.rng 'Ұ' 'Ұ', .rng 'ұ' 'ұ'], .cls false [.rng 'Р' 'Р', .rng 'р' 'р'], .cls false [.rng 'Ы' 'Ы', .rng 'ы' 'ы'], .cls false [.rng 'Н' 'Н', .rng 'н' 'н']], [.ref 1, .lit [' ', 'h', 'o', 'u', 'r', ' ', 'a', 'g', 'o']]),
    (.seqs [.grp 1 (.number), .lit [' '], .cls false [.rng 'А' 'А', .rng 'а' 'а'], .cls false [.rng 'П' 'П', .rng 'п' 'п'], .cls false [.rng 'Т' 'Т', .rng 'т' 'т', .rng 'ᲄ' 'ᲄ', .rng 'ᲅ' 'ᲅ'], .cls false [.rng 'А' 'А', .rng 'а' 'а'], .lit [' '], .cls false [.rng 'Б' 'Б', .rng 'б' 'б'], .cls false [.rng 'Ұ' 'Ұ', .rng 'ұ' 'ұ'], .cls false [.rng 'Р' 'Р', .rng 'р' 'р'], .cls false [.rng 'Ы' 'Ы', .rng 'ы' 'ы'], .cls false [.rng 'Н' 'Н', .rng 'н' 'н']], [.ref 1, .lit [' ', 'w', 'e', 'e', 'k', ' ', 'a', 'g', 'o']]),
    (.seqs [.grp 1 (.number), .lit [' '], .cls false [.rng 'Ж' 'Ж', .rng 'ж' 'ж'], .cls false [.rng 'Ы' 'Ы', .rng 'ы' 'ы'], .cls false [.rng 'Л' 'Л', .rng 'л' 'л'], .lit [' '], .cls false [.rng 'Б' 'Б', .rng 'б' 'б'], .cls false [.rng 'Ұ' 'Ұ', .rng 'ұ' 'ұ'], .cls false [.rng 'Р' 'Р', .rng 'р' 'р'], .cls false [.rng 'Ы' 'Ы', .rng 'ы' 'ы'], .cls false [.rng 'Н' 'Н', .rng 'н' 'н']], [.ref 1, .lit [' ', 'y', 'e', 'a', 'r', ' ', 'a', 'g', 'o']]),
    (.seqs [.grp 1 (.number), .lit [' '], .cls false [.rng 'К' 'К', .rng 'к' 'к'], .cls false [.rng 'Ү' 'Ү', .rng 'ү' 'ү'], .cls false [.rng 'Н' 'Н', .rng 'н' 'н'], .lit [' '], .cls false [.rng 'Б' 'Б', .rng 'б' 'б'], .cls false [.rng 'Ұ' 'Ұ', .rng 'ұ' 'ұ'], .cls false [.rng 'Р' 'Р', .rng 'р' 'р'], .cls false [.rng 'Ы' 'Ы', .rng 'ы' 'ы'], .cls false [.rng 'Н' 'Н', .rng 'н' 'н']], [.ref 1, .lit [' ', 'd', 'a', 'y', ' ', 'a', 'g', 'o']]),
    (.seqs [.grp 1 (.number), .lit [' '], .cls false [.rng 'М' 'М', .rng 'м' 'м'], .cls false [.rng 'И' 'И', .rng 'и' 'и'], .cls false [.rng 'Н' 'Н', .rng 'н' 'н'], .lit [' '], .cls false [.rng 'Б' 'Б', .rng 'б' 'б'], .cls false [.rng 'Ұ' 'Ұ', .rng 'ұ' 'ұ'], .cls false [.rng 'Р' 'Р', .rng 'р' 'р'], .cls false [.rng 'Ы' 'Ы', .rng 'ы' 'ы'], .cls false [.rng 'Н' 'Н', .rng 'н' 'н']], [.ref 1, .lit [' ', 'm', 'i', 'n', 'u', 't', 'e', ' ', 'a', 'g', 'o']]),
    (.seqs [.grp 1 (.number), .lit [' '], .cls false [.rng 'М' 'М', .rng 'м' 'м'], .cls false [.rng 'И' 'И', .rng 'и' 'и'], .cls false [.rng 'Н' 'Н', .rng 'н' 'н'], .lit [' '], .cls false [.rng 'К' 'К', .rng 'к' 'к'], .cls false [.rng 'Е' 'Е', .rng 'е' 'е'], .cls false [.rng 'И' 'И', .rng 'и' 'и'], .cls false [.rng 'І' 'І', .rng 'і' 'і'], .cls false [.rng 'Н' 'Н', .rng 'н' 'н']], [.lit ['i', 'n', ' '], .ref 1, .lit [' ', 'm', 'i', 'n', 'u', 't', 'e']]),
    (.seqs [.grp 1 (.number), .lit [' '], .cls false [.rng 'С' 'С', .rng 'с' 'с', .rng 'ᲃ' 'ᲃ'], .cls false [.rng 'А' 'А', .rng 'а' 'а'], .cls false [.rng 'Ғ' 'Ғ', .rng 'ғ' 'ғ'], .lit [' '], .cls false [.rng 'Б' 'Б', .rng 'б' 'б'], .cls false [.rng 'Ұ' 'Ұ', .rng 'ұ' 'ұ'], .cls false [.rng 'Р' 'Р', .rng 'р' 'р'], .cls false [.rng 'Ы' 'Ы', .rng 'ы' 'ы'], .cls false [.rng 'Н' 'Н', .rng 'н' 'н']], [.ref 1, .lit [' ', 'h', 'o', 'u', 'r', ' ', 'a', 'g', 'o']]),
    (.seqs [.grp 1 (.number), .lit [' '], .cls false [.rng 'С' 'С', .rng 'с' 'с', .rng 'ᲃ' 'ᲃ'], .cls false [.rng 'А' 'А', .rng 'а' 'а'], .cls false [.rng 'Ғ' 'Ғ', .rng 'ғ' 'ғ'], .lit [' '], .cls false [.rng 'К' 'К', .rng 'к' 'к'], .cls false [.rng 'Е' 'Е', .rng 'е' 'е'], .cls false [.rng 'И' 'И', .rng 'и' 'и'], .cls false [.rng 'І' 'І', .rng 'і' 'і'], .cls false [.rng 'Н' 'Н', .rng 'н' 'н']], [.lit ['i', 'n', ' '], .ref 1, .lit [' ', 'h', 'o', 'u', 'r']]),
    (.seqs [.grp 1 (.number), .lit [' '], .cls false [.rng 'С' 'С', .rng 'с' 'с', .rng 'ᲃ' 'ᲃ'], .cls false [.rng 'Е' 'Е', .rng 'е' 'е'], .cls false [.rng 'К' 'К', .rng 'к' 'к'], .lit [' '], .cls false [.rng 'Б' 'Б', .rng 'б' 'б'], .cls false [.rng 'Ұ' 'Ұ', .rng 'ұ' 'ұ'], .cls false [.rng 'Р' 'Р', .rng 'р' 'р'], .cls false [.rng 'Ы' 'Ы', .rng 'ы' 'ы'], .cls false [.rng 'Н' 'Н', .rng 'н' 'н']], [.ref 1, .lit [' ', 's', 'e', 'c', 'o', 'n', 'd', ' ', 'a', 'g', 'o']]),
    (.seqs [.grp 1 (.number), .lit [' '], .cls false [.rng 'С' 'С', .rng 'с' 'с', .rng 'ᲃ' 'ᲃ'], .cls false [.rng 'Е' 'Е', .rng 'е' 'е'], .cls false [.rng 'К' 'К', .rng 'к' 'к'], .lit [' '], .cls false [.rng 'К' 'К', .rng 'к' 'к'], .cls false [.rng 'Е' 'Е', .rng 'е' 'е'], .cls false [.rng 'И' 'И', .rng 'и' 'и'], .cls false [.rng 'І' 'І', .rng 'і' 'і'], .cls false [.rng 'Н' 'Н', .rng 'н' 'н']], [.lit ['i', 'n', ' '], .ref 1, .lit [' ', 's', 'e', 'c', 'o', 'n', 'd']]),
    (.seqs [.grp 1 (.number), .lit [' '], .cls false [.rng 'А' 'А', .rng 'а' 'а'], .cls false [.rng 'И' 'И', .rng 'и' 'и'], .lit [' '], .cls false [.rng 'Б' 'Б', .rng 'б' 'б'], .cls false [.rng 'Ұ' 'Ұ', .rng 'ұ' 'ұ'], .cls false [.rng 'Р' 'Р', .rng 'р' 'р'], .cls false [.rng 'Ы' 'Ы', .rng 'ы' 'ы'], .cls false [.rng 'Н' 'Н', .rng 'н' 'н']], [.ref 1, .lit [' ', 'm', 'o', 'n', 't', 'h', ' ', 'a', 'g', 'o']]),
    (.seqs [.grp 1 (.number), .lit [' '], .cls false [.rng 'А' 'А', .rng 'а' 'а'], .cls false [.rng 'П' 'П', .rng 'п' 'п'], .lit [' '], .cls false [.rng 'Б' 'Б', .rng 'б' 'б'], .cls false [.rng 'Ұ' 'Ұ', .rng 'ұ' 'ұ'], .cls false [.rng 'Р' 'Р', .rng 'р' 'р'], .cls false [.rng 'Ы' 'Ы', .rng 'ы' 'ы'], .cls false [.rng 'Н' 'Н', .rng 'н' 'н']], [.ref 1, .lit [' ', 'w', 'e', 'e', 'k', ' ', 'a', 'g', 'o']]),
    (.seqs [.grp 1 (.number), .lit [' '], .cls false [.rng 'А' 'А', .rng 'а' 'а'], .cls false [.rng 'П' 'П', .rng 'п' 'п'], .lit [' '], .cls false [.rng 'К' 'К', .rng 'к' 'к'], .cls false [.rng 'Е' 'Е', .rng 'е' 'е'], .cls false [.rng 'И' 'И', .rng 'и' 'и'], .cls false [.rng 'І' 'І', .rng 'і' 'і'], .cls false [.rng 'Н' 'Н', .rng 'н' 'н']], [.lit ['i', 'n', ' '], .ref 1, .lit [' ', 'w', 'e', 'e', 'k']]),
    (.seqs [.grp 1 (.number), .lit [' '], .cls false [.rng 'Ж' 'Ж', .rng 'ж' 'ж'], .lit [' '], .cls false [.rng 'Б' 'Б', .rng 'б' 'б'], .cls false [.rng 'Ұ' 'Ұ', .rng 'ұ' 'ұ'], .cls false [.rng 'Р' 'Р', .rng 'р' 'р'], .cls false [.rng 'Ы' 'Ы', .rng 'ы' 'ы'], .cls false [.rng 'Н' 'Н', .rng 'н' 'н']], [.ref 1, .lit [' ', 'y', 'e', 'a', 'r', ' ', 'a', 'g', 'o']]),
    (.seqs [.grp 1 (.number), .lit [' '], .cls false [.rng 'Ж' 'Ж', .rng 'ж' 'ж'], .lit [' '], .cls false [.rng 'К' 'К', .rng 'к' 'к'], .cls false [.rng 'Е' 'Е', .rng 'е' 'е'], .cls false [.rng 'И' 'И', .rng 'и' 'и'], .cls false [.rng 'І' 'І', .rng 'і' 'і'], .cls false [.rng 'Н' 'Н', .rng 'н' 'н']], [.lit ['i', 'n', ' '], .ref 1, .lit [' ', 'y', 'e', 'a', 'r']])],
  rxCombined := some (.seqs [.grp 1 (.alts [.bos, .cls true [.letter, .mark, .digit], .lit ['_']]), .grp 2 (.alts [.seqs [.number, .lit [' '], .cls false [.rng 'С' 'С', .rng 'с' 'с', .rng 'ᲃ' 'ᲃ'], .cls false [.rng 'Е' 'Е', .rng 'е' 'е'], .cls false [.rng 'К' 'К', .rng 'к' 'к'], .cls false [.rng 'У' 'У', .rng 'у' 'у'], .cls false [.rng 'Н' 'Н', .rng 'н' 'н'], .cls false [.rng 'Д' 'Д', .rng 'д' 'д', .rng 'ᲁ' 'ᲁ'], .cls false [.rng 'Т' 'Т', .rng 'т' 'т', .rng 'ᲄ' 'ᲄ', .rng 'ᲅ' 'ᲅ'], .cls false [.rng 'А' 'А', .rng 'а' 'а'], .cls false [.rng 'Н' 'Н', .rng 'н' 'н'], .lit [' '], .cls false [.rng 'К' 'К', .rng 'к' 'к'], .cls false [.rng 'Е' 'Е', .rng 'е' 'е'], .cls false [.rng 'И' 'И', .rng 'и' 'и'], .cls false [.rng 'І' 'І', .rng 'і' 'і'], .cls false [.rng 'Н' 'Н', .rng 'н' 'н']], .seqs [.number, .lit [' '], .cls false [.rng 'М' 'М', .rng 'м' 'м'], .cls false [.rng 'И' 'И', .rng 'и' 'и'], .cls false [.rng 'Н' 'Н', .rng 'н' 'н'], .cls false [.rng 'У' 'У', .rng 'у' 'у'], .cls false [.rng 'Т' 'Т', .rng 'т' 'т', .rng 'ᲄ' 'ᲄ', .rng 'ᲅ' 'ᲅ'], .cls false [.rng 'Т' 'Т', .rng 'т' 'т', .rng 'ᲄ' 'ᲄ', .rng 'ᲅ' 'ᲅ'], .cls false [.rng 'А' 'А', .rng 'а' 'а'], .cls false [.rng 'Н' 'Н', .rng 'н' 'н'], .lit [' '], .cls false [.rng 'К' 'К', .rng 'к' 'к'], .cls false [.rng 'Е' 'Е', .rng 'е' 'е'], .cls false [.rng 'И' 'И', .rng 'и' 'и'], .cls false [.rng 'І' 'І', .rng 'і' 'і'], .cls false [.rng 'Н' 'Н', .rng 'н' 'н']], .seqs [.number, .lit [' '], .cls false [.rng 'С' 'С', .rng 'с' 'с', .rng 'ᲃ' 'ᲃ'], .cls false [.rng 'А' 'А', .rng 'а' 'а'], .cls false [.rng 'Ғ' 'Ғ', .rng 'ғ' 'ғ'], .cls false [.rng 'А' 'А', .rng 'а' 'а'], .cls false [.rng 'Т' 'Т', .rng 'т' 'т', .rng 'ᲄ' 'ᲄ', .rng 'ᲅ' 'ᲅ'], .cls false [.rng 'Т' 'Т', .rng 'т' 'т', .rng 'ᲄ' 'ᲄ', .rng 'ᲅ' 'ᲅ'], .cls false [.rng 'А' 'А', .rng 'а' 'а'], .cls false [.rng 'Н' 'Н', .rng 'н' 'н'], .lit [' '], .cls false [.rng 'К' 'К', .rng 'к' 'к'], .cls false [.rng 'Е' 'Е', .rng 'е' 'е'], .cls false [.rng 'И' 'И', .rng 'и' 'и'], .cls false [.rng 'І' 'І', .rng 'і' 'і'], .cls false [.rng 'Н' 'Н', .rng 'н' 'н']], .seqs [.number, .lit [' '], .cls false [.rng 'А' 'А', .rng 'а' 'а'], .cls false [.rng 'П' 'П', .rng 'п' 'п'], .cls false [.rng 'Т' 'Т', .rng 'т' 'т', .rng 'ᲄ' 'ᲄ', .rng 'ᲅ' 'ᲅ'], .cls false [.rng 'А' 'А', .rng 'а' 'а'], .cls false [.rng 'Д' 'Д', .rng 'д' 'д', .rng 'ᲁ' 'ᲁ'], .cls false [.rng 'А' 'А', .rng 'а' 'а'], .cls false [.rng 'Н' 'Н', .rng 'н' 'н'], .lit [' '], .cls false [.rng 'К' 'К', .rng 'к' 'к'], .cls false [.rng 'Е' 'Е', .rng 'е' 'е'], .cls false [.rng 'И' 'И', .rng 'и' 'и'], .cls false [.rng 'І' 'І', .rng 'і' 'і'], .cls false [.rng 'Н' 'Н', .rng 'н' 'н']], .seqs [.number, .lit [' '], .cls false [.rng 'Ж' 'Ж', .rng 'ж' 'ж'], .cls false [.rng 'Ы' 'Ы', .rng 'ы' 'ы'], .cls false [.rng 'Л' 'Л', .rng 'л' 'л'], .cls false [.rng 'Д' 'Д', .rng 'д' 'д', .rng 'ᲁ' 'ᲁ'], .cls false [.rng 'А' 'А', .rng 'а' 'а'], .cls false [.rng 'Н' 'Н', .rng 'н' 'н'], .lit [' '], .cls false [.rng 'К' 'К', .rng 'к' 'к'], .cls false [.rng 'Е' 'Е', .rng 'е' 'е'], .cls false [.rng 'И' 'И', .rng 'и' 'и'], .cls false [.rng 'І' 'І', .rng 'і' 'і'], .cls false [.rng 'Н' 'Н', .rng 'н' 'н']], .seqs [.number, .lit [' '], .cls false [.rng 'К' 'К', .rng 'к' 'к'], .cls false [.rng 'Ү' 'Ү', .rng 'ү' 'ү'], .cls false [.rng 'Н' 'Н', .rng 'н' 'н'], .cls false [.rng 'Н' 'Н', .rng 'н' 'н'], .cls false [.rng 'Е' 'Е', .rng 'е' 'е'], .cls false [.rng 'Н' 'Н', .rng 'н' 'н'], .lit [' '], .cls false [.rng 'К' 'К', .rng 'к' 'к'], .cls false [.rng 'Е' 'Е', .rng 'е' 'е'], .cls false [.rng 'И' 'И', .rng 'и' 'и'], .cls false [.rng 'І' 'І', .rng 'і' 'і'], .cls false [.rng 'Н' 'Н', .rng 'н' 'н']], .seqs [.number, .lit [' '], .cls false [.rng 'С' 'С', .rng 'с' 'с', .rng 'ᲃ' 'ᲃ'], .cls false [.rng 'Е' 'Е', .rng 'е' 'е'], .cls false [.rng 'К' 'К', .rng 'к' 'к'], .cls false [.rng 'У' 'У', .rng 'у' 'у'], .cls false [.rng 'Н' 'Н', .rng 'н' 'н'], .cls false [.rng 'Д' 'Д', .rng 'д' 'д', .rng 'ᲁ' 'ᲁ'], .lit [' '], .cls false [.rng 'Б' 'Б', .rng 'б' 'б'], .cls false [.rng 'Ұ' 'Ұ', .rng 'ұ' 'ұ'], .cls false [.rng 'Р' 'Р', .rng 'р' 'р'], .cls false [.rng 'Ы' 'Ы', .rng 'ы' 'ы'], .cls false [.rng 'Н' 'Н', .rng 'н' 'н']], .seqs [.number, .lit [' '], .cls false [.rng 'А' 'А', .rng 'а' 'а'], .cls false [.rng 'И' 'И', .rng 'и' 'и'], .cls false [.rng 'Д' 'Д', .rng 'д' 'д', .rng 'ᲁ' 'ᲁ'], .cls false [.rng 'А' 'А', .rng 'а' 'а'], .cls false [.rng 'Н' 'Н', .rng 'н' 'н'], .lit [' '], .cls false [.rng 'К' 'К', .rng 'к' 'к'], .cls false [.rng 'Е' 'Е', .rng 'е' 'е'], .cls false [.rng 'И' 'И', .rng 'и' 'и'], .cls false [.rng 'І' 'І', .rng 'і' 'і'], .cls false [.rng 'Н' 'Н', .rng 'н' 'н']], .seqs [.number, .lit [' '], .cls false [.rng 'М' 'М', .rng 'м' 'м'], .cls false [.rng 'И' 'И', .rng 'и' 'и'], .cls false [.rng 'Н' 'Н', .rng 'н' 'н'], .cls false [.rng 'У' 'У', .rng 'у' 'у'], .cls false [.rng 'Т' 'Т', .rng 'т' 'т', .rng 'ᲄ' 'ᲄ', .rng 'ᲅ' 'ᲅ'], .lit [' '], .cls false [.rng 'Б' 'Б', .rng 'б' 'б'], .cls false [.rng 'Ұ' 'Ұ', .rng 'ұ' 'ұ'], .cls false [.rng 'Р' 'Р', .rng 'р' 'р'], .cls false [.rng 'Ы' 'Ы', .rng 'ы' 'ы'], .cls false [.rng 'Н' 'Н', .rng 'н' 'н']], .seqs [.number, .lit [' '], .cls false [.rng 'С' 'С', .rng 'с' 'с', .rng 'ᲃ' 'ᲃ'], .cls false [.rng 'А' 'А', .rng 'а' 'а'], .cls false [.rng 'Ғ' 'Ғ', .rng 'ғ' 'ғ'], .cls false [.rng 'А' 'А', .rng 'а' 'а'], .cls false [.rng 'Т' 'Т', .rng 'т' 'т', .rng 'ᲄ' 'ᲄ', .rng 'ᲅ' 'ᲅ'], .lit [' '], .cls false [.rng 'Б' 'Б', .rng 'б' 'б'], .cls false [.rng 'Ұ' 'Ұ', .rng 'ұ' 'ұ'], .cls false [.rng 'Р' 'Р', .rng 'р' 'р'], .cls false [.rng 'Ы' 'Ы', .rng 'ы' 'ы'], .cls false [.rng 'Н' 'Н', .rng 'н' 'н']], .seqs [.number, .lit [' '], .cls false [.rng 'А' 'А', .rng 'а' 'а'], .cls false [.rng 'П' 'П', .rng 'п' 'п'], .cls false [.rng 'Т' 'Т', .rng 'т' 'т', .rng 'ᲄ' 'ᲄ', .rng 'ᲅ' 'ᲅ'], .cls false [.rng 'А' 'А', .rng 'а' 'а'], .lit [' '], .cls false [.rng 'Б' 'Б', .rng 'б' 'б'], .cls false [.rng 'Ұ' 'Ұ', .rng 'ұ' 'ұ'], .cls false [.rng 'Р' 'Р', .rng 'р' 'р'], .cls false [.rng 'Ы' 'Ы', .rng 'ы' 'ы'], .cls false [.rng 'Н' 'Н', .rng 'н' 'н']], .seqs [.number, .lit [' '], .cls false [.rng 'Ж' 'Ж', .rng 'ж' 'ж'], .cls false [.rng 'Ы' 'Ы', .rng 'ы' 'ы'], .cls false [.rng 'Л' 'Л', .rng 'л' 'л'], .lit [' '], .cls false [.rng 'Б' 'Б', .rng 'б' 'б'], .cls false [.rng 'Ұ' 'Ұ', .rng 'ұ' 'ұ'], .cls false [.rng 'Р' 'Р', .rng 'р' 'р'], .cls false [.rng 'Ы' 'Ы', .rng 'ы' 'ы'], .cls false [.rng 'Н' 'Н', .rng 'н' 'н']], .seqs [.number, .lit [' '], .cls false [.rng 'К' 'К', .rng 'к' 'к'], .cls false [.rng 'Ү' 'Ү', .rng 'ү' 'ү'], .cls false [.rng 'Н' 'Н', .rng 'н' 'н'], .lit [' '], .cls false [.rng 'Б' 'Б', .rng 'б' 'б'], .cls false [.rng 'Ұ' 'Ұ', .rng 'ұ' 'ұ'], .cls false [.rng 'Р' 'Р', .rng 'р' 'р'], .cls false [.rng 'Ы' 'Ы', .rng 'ы' 'ы'], .cls false [.rng 'Н' 'Н', .rng 'н' 'н']], .seqs [.number, .lit [' '], .cls false [.rng 'М' 'М', .rng 'м' 'м'], .cls false [.rng 'И' 'И', .rng 'и' 'и'], .cls false [.rng 'Н' 'Н', .rng 'н' 'н'], .lit [' '], .cls false [.rng 'Б' 'Б', .rng 'б' 'б'], .cls false [.rng 'Ұ' 'Ұ', .rng 'ұ' 'ұ'], .cls false [.rng 'Р' 'Р', .rng 'р' 'р'], .cls false [.rng 'Ы' 'Ы', .rng 'ы' 'ы'], .cls false [.rng 'Н' 'Н', .rng 'н' 'н']], .seqs [.number, .lit [' '], .cls false [.rng 'М' 'М', .rng 'м' 'м'], .cls false [.rng 'И' 'И', .rng 'и' 'и'], .cls false [.rng 'Н' 'Н', .rng 'н' 'н'], .lit [' '], .cls false [.rng 'К' 'К', .rng 'к' 'к'], .cls false [.rng 'Е' 'Е', .rng 'е' 'е'], .cls false [.rng 'И' 'И', .rng 'и' 'и'], .cls false [.rng 'І' 'І', .rng 'і' 'і'], .cls false [.rng 'Н' 'Н', .rng 'н' 'н']], .seqs [.number, .lit [' '], .cls false [.rng 'С' 'С', .rng 'с' 'с', .rng 'ᲃ' 'ᲃ'], .cls false [.rng 'А' 'А', .rng 'а' 'а'], .cls false [.rng 'Ғ' 'Ғ', .rng 'ғ' 'ғ'], .lit [' '], .cls false [.rng 'Б' 'Б', .rng 'б' 'б'], .cls false [.rng 'Ұ' 'Ұ', .rng 'ұ' 'ұ'], .cls false [.rng 'Р' 'Р', .rng 'р' 'р'], .cls false [.rng 'Ы' 'Ы', .rng 'ы' 'ы'], .cls false [.rng 'Н' 'Н', .rng 'н' 'н']], .seqs [.number, .lit [' '], .cls false [.rng 'С' 'С', .rng 'с' 'с', .rng 'ᲃ' 'ᲃ'], .cls false [.rng 'А' 'А', .rng 'а' 'а'], .cls false [.rng 'Ғ' 'Ғ', .rng 'ғ' 'ғ'], .lit [' '], .cls false [.rng 'К' 'К', .rng 'к' 'к'], .cls false [.rng 'Е' 'Е', .rng 'е' 'е'], .cls false [.rng 'И' 'И', .rng 'и' 'и'], .cls false [.rng 'І' 'І', .rng 'і' 'і'], .cls false [.rng 'Н' 'Н', .rng 'н' 'н']], .seqs [.number, .lit [' '], .cls false [.rng 'С' 'С', .rng 'с' 'с', .rng 'ᲃ' 'ᲃ'], .cls false [.rng 'Е' 'Е', .rng 'е' 'е'], .cls false [.rng 'К' 'К', .rng 'к' 'к'], .lit [' '], .cls false [.rng 'Б' 'Б', .rng 'б' 'б'], .cls false [.rng 'Ұ' 'Ұ', .rng 'ұ' 'ұ'], .cls false [.rng 'Р' 'Р', .rng 'р' 'р'], .cls false [.rng 'Ы' 'Ы', .rng 'ы' 'ы'], .cls false [.rng 'Н' 'Н', .rng 'н' 'н']], .seqs [.number, .lit [' '], .cls false [.rng 'С' 'С', .rng 'с' 'с', .rng 'ᲃ' 'ᲃ'], .cls false [.rng 'Е' 'Е', .rng 'е' 'е'], .cls false [.rng 'К' 'К', .rng 'к' 'к'], .lit [' '], .cls false [.rng 'К' 'К', .rng 'к' 'к'], .cls false [.rng 'Е' 'Е', .rng 'е' 'е'], .cls false [.rng 'И' 'И', .rng 'и' 'и'], .cls false [.rng 'І' 'І', .rng 'і' 'і'], .cls false [.rng 'Н' 'Н', .rng 'н' 'н']], .seqs [.number, .lit [' '], .cls false [.rng 'А' 'А', .rng 'а' 'а'], .cls false [.rng 'И' 'И', .rng 'и' 'и'], .lit [' '], .cls false [.rng 'Б' 'Б', .rng 'б' 'б'], .cls false [.rng 'Ұ' 'Ұ', .rng 'ұ' 'ұ'], .cls false [.rng 'Р' 'Р', .rng 'р' 'р'], .cls false [.rng 'Ы' 'Ы', .rng 'ы' 'ы'], .cls false [.rng 'Н' 'Н', .rng 'н' 'н']], .seqs [.number, .lit [' '], .cls false [.rng 'А' 'А', .rng 'а' 'а'], .cls false [.rng 'П' 'П', .rng 'п' 'п'], .lit [' '], .cls false [.rng 'Б' 'Б', .rng 'б' 'б'], .cls false [.rng 'Ұ' 'Ұ', .rng 'ұ' 'ұ'], .cls false [.rng 'Р' 'Р', .rng 'р' 'р'], .cls false [.rng 'Ы' 'Ы', .rng 'ы' 'ы'], .cls false [.rng 'Н' 'Н', .rng 'н' 'н']], .seqs [.number, .lit [' '], .cls false [.rng 'А' 'А', .rng 'а' 'а'], .cls false [.rng 'П' 'П', .rng 'п' 'п'], .lit [' '], .cls false [.rng 'К' 'К', .rng 'к' 'к'], .cls false [.rng 'Е' 'Е', .rng 'е' 'е'], .cls false [.rng 'И' 'И', .rng 'и' 'и'], .cls false [.rng 'І' 'І', .rng 'і' 'і'], .cls false [.rng 'Н' 'Н', .rng 'н' 'н']], .seqs [.number, .lit [' '], .cls false [.rng 'Ж' 'Ж', .rng 'ж' 'ж'], .lit [' '], .cls false [.rng 'Б' 'Б', .rng 'б' 'б'], .cls false [.rng 'Ұ' 'Ұ', .rng 'ұ' 'ұ'], .cls false [.rng 'Р' 'Р', .rng 'р' 'р'], .cls false [.rng 'Ы' 'Ы', .rng 'ы' 'ы'], .cls false [.rng 'Н' 'Н', .rng 'н' 'н']], .seqs [.number, .lit [' '], .cls false [.rng 'Ж' 'Ж', .rng 'ж' 'ж'], .lit [' '], .cls false [.rng 'К' 'К', .rng 'к' 'к'], .cls false [.rng 'Е' 'Е', .rng 'е' 'е'], .cls false [.rng 'И' 'И', .rng 'и' 'и'], .cls false [.rng 'І' 'І', .rng 'і' 'і'], .cls false [.rng 'Н' 'Н', .rng 'н' 'н']]]), .grp 3 (.alts [.eos, .cls true [.letter, .mark, .digit], .lit ['_']])], 3),
  rxExact := some (.seqs [.bos, .grp 1 (.alts [.seqs [.number, .lit [' '], .cls false [.rng 'С' 'С', .rng 'с' 'с', .rng 'ᲃ' 'ᲃ'], .cls false [.rng 'Е' 'Е', .rng 'е' 'е'], .cls false [.rng 'К' 'К', .rng 'к' 'к'], .cls false [.rng 'У' 'У', .rng 'у' 'у'], .cls false [.rng 'Н' 'Н', .rng 'н' 'н'], .cls false [.rng 'Д' 'Д', .rng 'д' 'д', .rng 'ᲁ' 'ᲁ'], .cls false [.rng 'Т' 'Т', .rng 'т' 'т', .rng 'ᲄ' 'ᲄ', .rng 'ᲅ' 'ᲅ'], .cls false [.rng 'А' 'А', .rng 'а' 'а'], .cls false [.rng 'Н' 'Н', .rng 'н' 'н'], .lit [' '], .cls false [.rng 'К' 'К', .rng 'к' 'к'], .cls false [.rng 'Е' 'Е', .rng 'е' 'е'], .cls false [.rng 'И' 'И', .rng 'и' 'и'], .cls false [.rng 'І' 'І', .rng 'і' 'і'], .cls false [.rng 'Н' 'Н', .rng 'н' 'н']], .seqs [.number, .lit [' '], .cls false [.rng 'М' 'М', .rng 'м' 'м'], .cls false [.rng 'И' 'И', .rng 'и' 'и'], .cls false [.rng 'Н' 'Н', .rng 'н' 'н'], .cls false [.rng 'У' 'У', .rng 'у' 'у'], .cls false [.rng 'Т' 'Т', .rng 'т' 'т', .rng 'ᲄ' 'ᲄ', .rng 'ᲅ' 'ᲅ'], .cls false [.rng 'Т' 'Т', .rng 'т' 'т', .rng 'ᲄ' 'ᲄ', .rng 'ᲅ' 'ᲅ'], .cls false [.rng 'А' 'А', .rng 'а' 'а'], .cls false [.rng 'Н' 'Н', .rng 'н' 'н'], .lit [' '], .cls false [.rng 'К' 'К', .rng 'к' 'к'], .cls false [.rng 'Е' 'Е', .rng 'е' 'е'], .cls false [.rng 'И' 'И', .rng 'и' 'и'], .cls false [.rng 'І' 'І', .rng 'і' 'і'], .cls false [.rng 'Н' 'Н', .rng 'н' 'н']], .seqs [.number, .lit [' '], .cls false [.rng 'С' 'С', .rng 'с' 'с', .rng 'ᲃ' 'ᲃ'], .cls false [.rng 'А' 'А', .rng 'а' 'а'], .cls false [.rng 'Ғ' 'Ғ', .rng 'ғ' 'ғ'], .cls false [.rng 'А' 'А', .rng 'а' 'а'], .cls false [.rng 'Т' 'Т', .rng 'т' 'т', .rng 'ᲄ' 'ᲄ', .rng 'ᲅ' 'ᲅ'], .cls false [.rng 'Т' 'Т', .rng 'т' 'т', .rng 'ᲄ' 'ᲄ', .rng 'ᲅ' 'ᲅ'], .cls false [.rng 'А' 'А', .rng 'а' 'а'], .cls false [.rng 'Н' 'Н', .rng 'н' 'н'], .lit [' '], .cls false [.rng 'К' 'К', .rng 'к' 'к'], .cls false [.rng 'Е' 'Е', .rng 'е' 'е'], .cls false [.rng 'И' 'И', .rng 'и' 'и'], .cls false [.rng 'І' 'І', .rng 'і' 'і'], .cls false [.rng 'Н' 'Н', .rng 'н' 'н']], .seqs [.number, .lit [' '], .cls false [.rng 'А' 'А', .rng 'а' 'а'], .cls false [.rng 'П' 'П', .rng 'п' 'п'], .cls false [.rng 'Т' 'Т', .rng 'т' 'т', .rng 'ᲄ' 'ᲄ', .rng 'ᲅ' 'ᲅ'], .cls false [.rng 'А' 'А', .rng 'а' 'а'], .cls false [.rng 'Д' 'Д', .rng 'д' 'д', .rng 'ᲁ' 'ᲁ'], .cls false [.rng 'А' 'А', .rng 'а' 'а'], .cls false [.rng 'Н' 'Н', .rng 'н' 'н'], .lit [' '], .cls false [.rng 'К' 'К', .rng 'к' 'к'], .cls false [.rng 'Е' 'Е', .rng 'е' 'е'], .cls false [.rng 'И' 'И', .rng 'и' 'и'], .cls false [.rng 'І' 'І', .rng 'і' 'і'], .cls false [.rng 'Н' 'Н', .rng 'н' 'н']], .seqs [.number, .lit [' '], .cls false [.rng 'Ж' 'Ж', .rng 'ж' 'ж'], .cls false [.rng 'Ы' 'Ы', .rng 'ы' 'ы'], .cls false [.rng 'Л' 'Л', .rng 'л' 'л'], .cls false [.rng 'Д' 'Д', .rng 'д' 'д', .rng 'ᲁ' 'ᲁ'], .cls false [.rng 'А' 'А', .rng 'а' 'а'], .cls false [.rng 'Н' 'Н', .rng 'н' 'н'], .lit [' '], .cls false [.rng 'К' 'К', .rng 'к' 'к'], .cls false [.rng 'Е' 'Е', .rng 'е' 'е'], .cls false [.rng 'И' 'И', .rng 'и' 'и'], .cls false [.rng 'І' 'І', .rng 'і' 'і'], .cls false [.rng 'Н' 'Н', .rng 'н' 'н']], .seqs [.number, .lit [' '], .cls false [.rng 'К' 'К', .rng 'к' 'к'], .cls false [.rng 'Ү' 'Ү', .rng 'ү' 'ү'], .cls false [.rng 'Н' 'Н', .rng 'н' 'н'], .cls false [.rng 'Н' 'Н', .rng 'н' 'н'], .cls false [.rng 'Е' 'Е', .rng 'е' 'е'], .cls false [.rng 'Н' 'Н', .rng 'н' 'н'], .lit [' '], .cls false [.rng 'К' 'К', .rng 'к' 'к'], .cls false [.rng 'Е' 'Е', .rng 'е' 'е'], .cls false [.rng 'И' 'И', .rng 'и' 'и'], .cls false [.rng 'І' 'І', .rng 'і' 'і'], .cls false [.rng 'Н' 'Н', .rng 'н' 'н']], .seqs [.number, .lit [' '], .cls false [.rng 'С' 'С', .rng 'с' 'с', .rng 'ᲃ' 'ᲃ'], .cls false [.rng 'Е' 'Е', .rng 'е' 'е'], .cls false [.rng 'К' 'К', .rng 'к' 'к'], .cls false [.rng 'У' 'У', .rng 'у' 'у'], .cls false [.rng 'Н' 'Н', .rng 'н' 'н'], .cls false [.rng 'Д' 'Д', .rng 'д' 'д', .rng 'ᲁ' 'ᲁ'], .lit [' '], .cls false [.rng 'Б' 'Б', .rng 'б' 'б'], .cls false [.rng 'Ұ' 'Ұ', .rng 'ұ' 'ұ'], .cls false [.rng 'Р' 'Р', .rng 'р' 'р'], .cls false [.rng 'Ы' 'Ы', .rng 'ы' 'ы'], .cls false [.rng 'Н' 'Н', .rng 'н' 'н']], .seqs [.number, .lit [' '], .cls false [.rng 'А' 'А', .rng 'а' 'а'], .cls false [.rng 'И' 'И', .rng 'и' 'и'], .cls false [.rng 'Д' 'Д', .rng 'д' 'д', .rng 'ᲁ' 'ᲁ'], .cls false [.rng 'А' 'А', .rng 'а' 'а'], .cls false [.rng 'Н' 'Н', .rng 'н' 'н'], .lit [' '], .cls false [.rng 'К' 'К', .rng 'к' 'к'], .cls false [.rng 'Е' 'Е', .rng 'е' 'е'], .cls false [.rng 'И' 'И', .rng 'и' 'и'], .cls false [.rng 'І' 'І', .rng 'і' 'і'], .cls false [.rng 'Н' 'Н', .rng 'н' 'н']], .seqs [.number, .lit [' '], .cls false [.rng 'М' 'М', .rng 'м' 'м'], .cls false [.rng 'И' 'И', .rng 'и' 'и'], .cls false [.rng 'Н' 'Н', .rng 'н' 'н'], .cls false [.rng 'У' 'У', .rng 'у' 'у'], .cls false [.rng 'Т' 'Т', .rng 'т' 'т', .rng 'ᲄ' 'ᲄ', .rng 'ᲅ' 'ᲅ'], .lit [' '], .cls false [.rng 'Б' 'Б', .rng 'б' 'б'], .cls false [.rng 'Ұ' 'Ұ', .rng 'ұ' 'ұ'], .cls false [.rng 'Р' 'Р', .rng 'р' 'р'], .cls false [.rng 'Ы' 'Ы', .rng 'ы' 'ы'], .cls false [.rng 'Н' 'Н', .rng 'н' 'н']], .seqs [.number, .lit [' '], .cls false [.rng 'С' 'С', .rng 'с' 'с', .rng 'ᲃ' 'ᲃ'], .cls false [.rng 'А' 'А', .rng 'а' 'а'], .cls false [.rng 'Ғ' 'Ғ', .rng 'ғ' 'ғ'], .cls false [.rng 'А' 'А', .rng 'а' 'а'], .cls false [.rng 'Т' 'Т', .rng 'т' 'т', .rng 'ᲄ' 'ᲄ', .rng 'ᲅ' 'ᲅ'], .lit [' '], .cls false [.rng 'Б' 'Б', .rng 'б' 'б'], .cls false [.rng 'Ұ' 'Ұ', .rng 'ұ' 'ұ'], .cls false [.rng 'Р' 'Р', .rng 'р' 'р'], .cls false [.rng 'Ы' 'Ы', .rng 'ы' 'ы'], .cls false [.rng 'Н' 'Н', .rng 'н' 'н']], .seqs [.number, .lit [' '], .cls false [.rng 'А' 'А', .rng 'а' 'а'], .cls false [.rng 'П' 'П', .rng 'п' 'п'], .cls false [.rng 'Т' 'Т', .rng 'т' 'т', .rng 'ᲄ' 'ᲄ', .rng 'ᲅ' 'ᲅ'], .cls false [.rng 'А' 'А', .rng 'а' 'а'], .lit [' '], .cls false [.rng 'Б' 'Б', .rng 'б' 'б'], .cls false [.rng 'Ұ' 'Ұ', .rng 'ұ' 'ұ'], .cls false [.rng 'Р' 'Р', .rng 'р' 'р'], .cls false [.rng 'Ы' 'Ы', .rng 'ы' 'ы'], .cls false [.rng 'Н' 'Н', .rng 'н' 'н']], .seqs [.number, .lit [' '], .cls false [.rng 'Ж' 'Ж', .rng 'ж' 'ж'], .cls false [.rng 'Ы' 'Ы', .rng 'ы' 'ы'], .cls false [.rng 'Л' 'Л', .rng 'л' 'л'], .lit [' '], .cls false [.rng 'Б' 'Б', .rng 'б' 'б'], .cls false [.rng 'Ұ' 'Ұ', .rng 'ұ' 'ұ'], .cls false [.rng 'Р' 'Р', .rng 'р' 'р'], .cls false [.rng 'Ы' 'Ы', .rng 'ы' 'ы'], .cls false [.rng 'Н' 'Н', .rng 'н' 'н']], .seqs [.number, .lit [' '], .cls false [.rng 'К' 'К', .rng 'к' 'к'], .cls false [.rng 'Ү' 'Ү', .rng 'ү' 'ү'], .cls false [.rng 'Н' 'Н', .rng 'н' 'н'], .lit [' '], .cls false [.rng 'Б' 'Б', .rng 'б' 'б'], .cls false [.rng 'Ұ' 'Ұ', .rng 'ұ' 'ұ'], .cls false [.rng 'Р' 'Р', .rng 'р' 'р'], .cls false [.rng 'Ы' 'Ы', .rng 'ы' 'ы'], .cls false [.rng 'Н' 'Н', .rng 'н' 'н']], .seqs [.number, .lit [' '], .cls false [.rng 'М' 'М', .rng 'м' 'м'], .cls false [.rng 'И' 'И', .rng 'и' 'и'], .cls false [.rng 'Н' 'Н', .rng 'н' 'н'], .lit [' '], .cls false [.rng 'Б' 'Б', .rng 'б' 'б'], .cls false [.rng 'Ұ' 'Ұ', .rng 'ұ' 'ұ'], .cls false [.rng 'Р' 'Р', .rng 'р' 'р'], .cls false [.rng 'Ы' 'Ы', .rng 'ы' 'ы'], .cls false [.rng 'Н' 'Н', .rng 'н' 'н']], .seqs [.number, .lit [' '], .cls false [.rng 'М' 'М', .rng 'м' 'м'], .cls false [.rng 'И' 'И', .rng 'и' 'и'], .cls false [.rng 'Н' 'Н', .rng 'н' 'н'], .lit [' '], .cls false [.rng 'К' 'К', .rng 'к' 'к'], .cls false [.rng 'Е' 'Е', .rng 'е' 'е'], .cls false [.rng 'И' 'И', .rng 'и' 'и'], .cls false [.rng 'І' 'І', .rng 'і' 'і'], .cls false [.rng 'Н' 'Н', .rng 'н' 'н']], .seqs [.number, .lit [' '], .cls false [.rng 'С' 'С', .rng 'с' 'с', .rng 'ᲃ' 'ᲃ'], .cls false [.rng 'А' 'А', .rng 'а' 'а'], .cls false [.rng 'Ғ' 'Ғ', .rng 'ғ' 'ғ'], .lit [' '], .cls false [.rng 'Б' 'Б', .rng 'б' 'б'], .cls false [.rng 'Ұ' 'Ұ', .rng 'ұ' 'ұ'], .cls false [.rng 'Р' 'Р', .rng 'р' 'р'], .cls false [.rng 'Ы' 'Ы', .rng 'ы' 'ы'], .cls false [.rng 'Н' 'Н', .rng 'н' 'н']], .seqs [.number, .lit [' '], .cls false [.rng 'С' 'С', .rng 'с' 'с', .rng 'ᲃ' 'ᲃ'], .cls false [.rng 'А' 'А', .rng 'а' 'а'], .cls false [.rng 'Ғ' 'Ғ', .rng 'ғ' 'ғ'], .lit [' '], .cls false [.rng 'К' 'К', .rng 'к' 'к'], .cls false [.rng 'Е' 'Е', .rng 'е' 'е'], .cls false [.rng 'И' 'И', .rng 'и' 'и'], .cls false [.rng 'І' 'І', .rng 'і' 'і'], .cls false [.rng 'Н' 'Н', .rng 'н' 'н']], .seqs [.number, .lit [' '], .cls false [.rng 'С' 'С', .rng 'с' 'с', .rng 'ᲃ' 'ᲃ'], .cls false [.rng 'Е' 'Е', .rng 'е' 'е'], .cls false [.rng 'К' 'К', .rng 'к' 'к'], .lit [' '], .cls false [.rng 'Б' 'Б', .rng 'б' 'б'], .cls false [.rng 'Ұ' 'Ұ', .rng 'ұ' 'ұ'], .cls false [.rng 'Р' 'Р', .rng 'р' 'р'], .cls false [.rng 'Ы' 'Ы', .rng 'ы' 'ы'], .cls false [.rng 'Н' 'Н', .rng 'н' 'н']], .seqs [.number, .lit [' '], .cls false [.rng 'С' 'С', .rng 'с' 'с', .rng 'ᲃ' 'ᲃ'], .cls false [.rng 'Е' 'Е', .rng 'е' 'е'], .cls false [.rng 'К' 'К', .rng 'к' 'к'], .lit [' '], .cls false [.rng 'К' 'К', .rng 'к' 'к'], .cls false [.rng 'Е' 'Е', .rng 'е' 'е'], .cls false [.rng 'И' 'И', .rng 'и' 'и'], .cls false [.rng 'І' 'І', .rng 'і' 'і'], .cls false [.rng 'Н' 'Н', .rng 'н' 'н']], .seqs [.number, .lit [' '], .cls false [.rng 'А' 'А', .rng 'а' 'а'], .cls false [.rng 'И' 'И', .rng 'и' 'и'], .lit [' '], .cls false [.rng 'Б' 'Б', .rng 'б' 'б'], .cls false [.rng 'Ұ' 'Ұ', .rng 'ұ' 'ұ'], .cls false [.rng 'Р' 'Р', .rng 'р' 'р'], .cls false [.rng 'Ы' 'Ы', .rng 'ы' 'ы'], .cls false [.rng 'Н' 'Н', .rng 'н' 'н']], .seqs [.number, .lit [' '], .cls false [.rng 'А' 'А', .rng 'а' 'а'], .cls false [.rng 'П' 'П', .rng 'п' 'п'], .lit [' '], .cls false [.rng 'Б' 'Б', .rng 'б' 'б'], .cls false [.rng 'Ұ' 'Ұ', .rng 'ұ' 'ұ'], .cls false [.rng 'Р' 'Р', .rng 'р' 'р'], .cls false [.rng 'Ы' 'Ы', .rng 'ы' 'ы'], .cls false [.rng 'Н' 'Н', .rng 'н' 'н']], .seqs [.number, .lit [' '], .cls false [.rng 'А' 'А', .rng 'а' 'а'], .cls false [.rng 'П' 'П', .rng 'п' 'п'], .lit [' '], .cls false [.rng 'К' 'К', .rng 'к' 'к'], .cls false [.rng 'Е' 'Е', .rng 'е' 'е'], .cls false [.rng 'И' 'И', .rng 'и' 'и'], .cls false [.rng 'І' 'І', .rng 'і' 'і'], .cls false [.rng 'Н' 'Н', .rng 'н' 'н']], .seqs [.number, .lit [' '], .cls false [.rng 'Ж' 'Ж', .rng 'ж' 'ж'], .lit [' '], .cls false [.rng 'Б' 'Б', .rng 'б' 'б'], .cls false [.rng 'Ұ' 'Ұ', .rng 'ұ' 'ұ'], .cls false [.rng 'Р' 'Р', .rng 'р' 'р'], .cls false [.rng 'Ы' 'Ы', .rng 'ы' 'ы'], .cls false [.rng 'Н' 'Н', .rng 'н' 'н']], .seqs [.number, .lit [' '], .cls false [.rng 'Ж' 'Ж', .rng 'ж' 'ж'], .lit [' '], .cls false [.rng 'К' 'К', .rng 'к' 'к'], .cls false [.rng 'Е' 'Е', .rng 'е' 'е'], .cls false [.rng 'И' 'И', .rng 'и' 'и'], .cls false [.rng 'І' 'І', .rng 'і' 'і'], .cls false [.rng 'Н' 'Н', .rng 'н' 'н']]]), .eos]),
  knownWords :=
   [['б', 'ы', 'л', 'т', 'ы', 'р', 'ғ', 'ы', ' ', 'ж', 'ы', 'л'], ['к', 'е', 'л', 'е', 'с', 'і', ' ', 'а', 'п', 'т', 'а'], ['б', 'и', 'ы', 'л', 'ғ', 'ы', ' ', 'ж', 'ы', 'л'], ['к', 'е', 'л', 'е', 'с', 'і', ' ', 'ж', 'ы', 'л'], ['ө', 'т', 'к', 'е', 'н', ' ', 'а', 'п', 'т', 'а'], ['ж', 'е', 'л', 'т', 'о', 'қ', 'с', 'а', 'н'], ['к', 'е', 'л', 'е', 'с', 'і', ' ', 'а', 'и'], ['о', 'с', 'ы', ' ', 'м', 'и', 'н', 'у', 'т'], ['о', 'с', 'ы', ' ', 'с', 'а', 'ғ', 'а', 'т'], ['б', 'е', 'и', 'с', 'е', 'н', 'б', 'і'], ['д', 'ү', 'и', 'с', 'е', 'н', 'б', 'і'], ['ж', 'е', 'к', 'с', 'е', 'н', 'б', 'і'], ['о', 'с', 'ы', ' ', 'а', 'п', 'т', 'а'], ['с', 'е', 'и', 'с', 'е', 'н', 'б', 'і'], ['с', 'ә', 'р', 'с', 'е', 'н', 'б', 'і'], ['қ', 'ы', 'р', 'к', 'ү', 'и', 'е', 'к'], ['ө', 'т', 'к', 'е', 'н', ' ', 'а', 'и'], ['м', 'а', 'у', 'с', 'ы', 'м'], ['н', 'а', 'у', 'р', 'ы', 'з'], ['о', 'с', 'ы', ' ', 'а', 'и'], ['с', 'е', 'к', 'у', 'н', 'д'], ['қ', 'а', 'р', 'а', 'ш', 'а'], ['қ', 'а', 'ң', 'т', 'а', 'р'], ['а', 'қ', 'п', 'а', 'н'], ['б', 'ү', 'г', 'і', 'н'], ['е', 'р', 'т', 'е', 'ң'], ['м', 'а', 'м', 'ы', 'р'], ['м', 'и', 'н', 'у', 'т'], ['с', 'а', 'ғ', 'а', 'т'], ['с', 'е', 'н', 'б', 'і'], ['с', 'ә', 'у', 'і', 'р'], ['т', 'а', 'м', 'ы', 'з'], ['ш', 'і', 'л', 'д', 'е'], ['қ', 'а', 'з', 'а', 'н'], ['қ', 'а', 'з', 'і', 'р'], ['а', 'п', 'т', 'а'], ['ж', 'ұ', 'м', 'а'], ['к', 'е', 'ш', 'е'], ['g', 'm', 't'], ['u', 't', 'c'], ['а', 'қ', 'п'], ['ж', 'е', 'л'], ['ж', 'ы', 'л'], ['к', 'ү', 'н'], ['м', 'а', 'м'], ['м', 'а', 'у'], ['м', 'и', 'н'], ['н', 'а', 'у'], ['с', 'а', 'ғ'], ['с', 'ә', 'у'], ['т', 'а', 'м'], ['ш', 'і', 'л'], ['қ', 'а', 'з'], ['қ', 'а', 'р'], ['қ', 'а', 'ң'], ['қ', 'ы', 'р'], ['a', 'm'], ['p', 'm'], ['а', 'и'], ['а', 'п'], ['б', 'с'], ['д', 'с'], ['ж', 'м'], ['ж', 'с'], ['с', 'б'], ['с', 'р'], ['с', 'с'], [' '], ['\''], ['+'], [','], ['-'], ['.'], ['/'], [':'], [';'], ['@'], ['['], [']'], ['z'], ['|'], ['ж'], ['с']] }

/-- internal/data/kl.go: `kl_Locale`. -/
def klLang : LangData := { klDict with
  relativeRegexes :=
   [(.seqs [.lit ['f', 'o', 'r', ' '], .grp 1 (.number), .lit [' ', 'n', 'a', 'l', 'u', 'n', 'a', 'a', 'q', 'u', 't', 't', 'a', 'p', '-', 'a', 'k', 'u', 'n', 'n', 'e', 'r', 'a', ' ', 's', 'i', 'd', 'e', 'n']], [.ref 1, .lit [' ', 'h', 'o', 'u', 'r', ' ', 'a', 'g', 'o']]),
    (.seqs [.lit ['f', 'o', 'r', ' '], .grp 1 (.number), .lit [' ', 's', 'a', 'p', 'a', 'a', 't', 'i', 'p', '-', 'a', 'k', 'u', 'n', 'n', 'e', 'r', 'a', ' ', 's', 'i', 'd', 'e', 'n']], [.ref 1, .lit [' ', 'w', 'e', 'e', 'k', ' ', 'a', 'g', 'o']]),
    (.seqs [.lit ['o', 'm', ' '], .grp 1 (.number), .lit [' ', 'n', 'a', 'l', 'u', 'n', 'a', 'a', 'q', 'u', 't', 't', 'a', 'p', '-', 'a', 'k', 'u', 'n', 'n', 'e', 'r', 'a']], [.lit ['i', 'n', ' '], .ref 1, .lit [' ', 'h', 'o', 'u', 'r']]),
    (.seqs [.lit ['f', 'o', 'r', ' '], .grp 1 (.number), .lit [' ', 'u', 'l', 'l', 'o', 'q', ' ', 'u', 'n', 'n', 'u', 'a', 'r', 'l', 'u', ' ', 's', 'i', 'd', 'e', 'n']], [.ref 1, .lit [' ', 'd', 'a', 'y', ' ', 'a', 'g', 'o']]),
    (.seqs [.lit ['o', 'm', ' '], .grp 1 (.number), .lit [' ', 's', 'a', 'p', 'a', 'a', 't', 'i', 'p', '-', 'a', 'k', 'u', 'n', 'n', 'e', 'r', 'a']], [.lit ['i', 'n', ' '], .ref 1, .lit [' ', 'w', 'e', 'e', 'k']]),
    (.seqs [.lit ['f', 'o', 'r', ' '], .grp 1 (.number), .lit [' ', 'm', 'i', 'n', 'u', 't', 's', 'i', ' ', 's', 'i', 'd', 'e', 'n']], [.ref 1, .lit [' ', 'm', 'i', 'n', 'u', 't', 'e', ' ', 'a', 'g', 'o']]),
    (.seqs [.lit ['f', 'o', 'r', ' '], .grp 1 (.number), .lit [' ', 'q', 'a', 'a', 'm', 'm', 'a', 't', ' ', 's', 'i', 'd', 'e', 'n']], [.ref 1, .lit [' ', 'm', 'o', 'n', 't', 'h', ' ', 'a', 'g', 'o']]),
    (.seqs [.lit ['f', 'o', 'r', ' '], .grp 1 (.number), .lit [' ', 's', 'e', 'k', 'u', 'n', 'd', 'i', ' ', 's', 'i', 'd', 'e', 'n']], [.ref 1, .lit [' ', 's', 'e', 'c', 'o', 'n', 'd', ' ', 'a', 'g', 'o']]),
    (.seqs [.lit ['o', 'm', ' '], .grp 1 (.number), .lit [' ', 'u', 'l', 'l', 'o', 'q', ' ', 'u', 'n', 'n', 'u', 'a', 'r', 'l', 'u']], [.lit ['i', 'n', ' '], .ref 1, .lit [' ', 'd', 'a', 'y']]),
    (.seqs [.lit ['f', 'o', 'r', ' '], .grp 1 (.number), .lit [' ', 'u', 'k', 'i', 'o', 'q', ' ', 's', 'i', 'd', 'e', 'n']], [.ref 1, .lit [' ', 'y', 'e', 'a', 'r', ' ', 'a', 'g', 'o']]),
    (.seqs [.lit ['o', 'm', ' '], .grp 1 (.number), .lit [' ', 'm', 'i', 'n', 'u', 't', 's', 'i']], [.lit ['i', 'n', ' '], .ref 1, .lit [' ', 'm', 'i', 'n', 'u', 't', 'e']]),
    (.seqs [.lit ['o', 'm', ' '], .grp 1 (.number), .lit [' ', 'q', 'a', 'a', 'm', 'm', 'a', 't']], [.lit ['i', 'n', ' '], .ref 1, .lit [' ', 'm', 'o', 'n', 't', 'h']]),
    (.seqs [.lit ['o', 'm', ' '], .grp 1 (.number), .lit [' ', 's', 'e', 'k', 'u', 'n', 'd', 'i']], [.lit ['i', 'n', ' '], .ref 1, .lit [' ', 's', 'e', 'c', 'o', 'n', 'd']]),
    (.seqs [.lit ['o', 'm', ' '], .grp 1 (.number), .lit [' ', 'u', 'k', 'i', 'o', 'q']], [.lit ['i', 'n', ' '], .ref 1, .lit [' ', 'y', 'e', 'a', 'r']])],
  rxCombined := some (.seqs [.grp 1 (.alts [.bos, .cls true [.letter, .mark, .digit], .lit ['_']]), .grp 2 (.alts [.seqs [.lit ['f', 'o', 'r', ' '], .number, .lit [' ', 'n', 'a', 'l', 'u', 'n', 'a', 'a', 'q', 'u', 't', 't', 'a', 'p', '-', 'a', 'k', 'u', 'n', 'n', 'e', 'r', 'a', ' ', 's', 'i', 'd', 'e', 'n']], .seqs [.lit ['f', 'o', 'r', ' '], .number, .lit [' ', 's', 'a', 'p', 'a', 'a', 't', 'i', 'p', '-', 'a', 'k', 'u', 'n', 'n', 'e', 'r', 'a', ' ', 's', 'i', 'd', 'e', 'n']], .seqs [.lit ['o', 'm', ' '], .number, .lit [' ', 'n', 'a', 'l', 'u', 'n', 'a', 'a', 'q', 'u', 't', 't', 'a', 'p', '-', 'a', 'k', 'u', 'n', 'n', 'e', 'r', 'a']], .seqs [.lit ['f', 'o', 'r', ' '], .number, .lit [' ', 'u', 'l', 'l', 'o', 'q', ' ', 'u', 'n', 'n', 'u', 'a', 'r', 'l', 'u', ' ', 's', 'i', 'd', 'e', 'n']], .seqs [.lit ['o', 'm', ' '], .number, .lit [' ', 's', 'a', 'p', 'a', 'a', 't', 'i', 'p', '-', 'a', 'k', 'u', 'n', 'n', 'e', 'r', 'a']], .seqs [.lit ['f', 'o', 'r', ' '], .number, .lit [' ', 'm', 'i', 'n', 'u', 't', 's', 'i', ' ', 's', 'i', 'd', 'e', 'n']], .seqs [.lit ['f', 'o', 'r', ' '], .number, .lit [' ', 'q', 'a', 'a', 'm', 'm', 'a', 't', ' ', 's', 'i', 'd', 'e', 'n']], .seqs [.lit ['f', 'o', 'r', ' '], .number, .lit [' ', 's', 'e', 'k', 'u', 'n', 'd', 'i', ' ', 's', 'i', 'd', 'e', 'n']], .seqs [.lit ['o', 'm', ' '], .number, .lit [' ', 'u', 'l', 'l', 'o', 'q', ' ', 'u', 'n', 'n', 'u', 'a', 'r', 'l', 'u']], .seqs [.lit ['f', 'o', 'r', ' '], .number, .lit [' ', 'u', 'k', 'i', 'o', 'q', ' ', 's', 'i', 'd', 'e', 'n']], .seqs [.lit ['o', 'm', ' '], .number, .lit [' ', 'm', 'i', 'n', 'u', 't', 's', 'i']], .seqs [.lit ['o', 'm', ' '], .number, .lit [' ', 'q', 'a', 'a', 'm', 'm', 'a', 't']], .seqs [.lit ['o', 'm', ' '], .number, .lit [' ', 's', 'e', 'k', 'u', 'n', 'd', 'i']], .seqs [.lit ['o', 'm', ' '], .number, .lit [' ', 'u', 'k', 'i', 'o', 'q']]]), .grp 3 (.alts [.eos, .cls true [.letter, .mark, .digit], .lit ['_']])], 3),
  rxExact := some (.seqs [.bos, .grp 1 (.alts [.seqs [.lit ['f', 'o', 'r', ' '], .number, .lit [' ', 'n', 'a', 'l', 'u', 'n', 'a', 'a', 'q', 'u', 't', 't', 'a', 'p', '-', 'a', 'k', 'u', 'n', 'n', 'e', 'r', 'a', ' ', 's', 'i', 'd', 'e', 'n']], .seqs [.lit ['f', 'o', 'r', ' '], .number, .lit [' ', 's', 'a', 'p', 'a', 'a', 't', 'i', 'p', '-', 'a', 'k', 'u', 'n', 'n', 'e', 'r', 'a', ' ', 's', 'i', 'd', 'e', 'n']], .seqs [.lit ['o', 'm', ' '], .number, .lit [' ', 'n', 'a', 'l', 'u', 'n', 'a', 'a', 'q', 'u', 't', 't', 'a', 'p', '-', 'a', 'k', 'u', 'n', 'n', 'e', 'r', 'a']], .seqs [.lit ['f', 'o', 'r', ' '], .number, .lit [' ', 'u', 'l', 'l', 'o', 'q', ' ', 'u', 'n', 'n', 'u', 'a', 'r', 'l', 'u', ' ', 's', 'i', 'd', 'e', 'n']], .seqs [.lit ['o', 'm', ' '], .number, .lit [' ', 's', 'a', 'p', 'a', 'a', 't', 'i', 'p', '-', 'a', 'k', 'u', 'n', 'n', 'e', 'r', 'a']], .seqs [.lit ['f', 'o', 'r', ' '], .number, .lit [' ', 'm', 'i', 'n', 'u', 't', 's', 'i', ' ', 's', 'i', 'd', 'e', 'n']], .seqs [.lit ['f', 'o', 'r', ' '], .number, .lit [' ', 'q', 'a', 'a', 'm', 'm', 'a', 't', ' ', 's', 'i', 'd', 'e', 'n']], .seqs [.lit ['f', 'o', 'r', ' '], .number, .lit [' ', 's', 'e', 'k', 'u', 'n', 'd', 'i', ' ', 's', 'i', 'd', 'e', 'n']], .seqs [.lit ['o', 'm', ' '], .number, .lit [' ', 'u', 'l', 'l', 'o', 'q', ' ', 'u', 'n', 'n', 'u', 'a', 'r', 'l', 'u']], .seqs [.lit ['f', 'o', 'r', ' '], .number, .lit [' ', 'u', 'k', 'i', 'o', 'q', ' ', 's', 'i', 'd', 'e', 'n']], .seqs [.lit ['o', 'm', ' '], .number, .lit [' ', 'm', 'i', 'n', 'u', 't', 's', 'i']], .seqs [.lit ['o', 'm', ' '], .number, .lit [' ', 'q', 'a', 'a', 'm', 'm', 'a', 't']], .seqs [.lit ['o', 'm', ' '], .number, .lit [' ', 's', 'e', 'k', 'u', 'n', 'd', 'i']], .seqs [.lit ['o', 'm', ' '], .number, .lit [' ', 'u', 'k', 'i', 'o', 'q']]]), .eos]),
  knownWords :=
   [['p', 'i', 'n', 'g', 'a', 's', 'u', 'n', 'n', 'g', 'o', 'r', 'n', 'e', 'q'], ['t', 'a', 'l', 'l', 'i', 'm', 'a', 'n', 'n', 'g', 'o', 'r', 'n', 'e', 'q'], ['a', 'r', 'f', 'i', 'n', 'i', 'n', 'n', 'g', 'o', 'r', 'n', 'e', 'q'], ['a', 't', 'a', 'a', 's', 'i', 'n', 'n', 'g', 'o', 'r', 'n', 'e', 'q'], ['s', 'i', 's', 'a', 'm', 'a', 'n', 'n', 'g', 'o', 'r', 'n', 'e', 'q'], ['m', 'a', 'r', 'l', 'u', 'n', 'n', 'g', 'o', 'r', 'n', 'e', 'q'], ['t', 'h', 'i', 's', ' ', 'm', 'i', 'n', 'u', 't', 'e'], ['l', 'a', 's', 't', ' ', 'm', 'o', 'n', 't', 'h'], ['n', 'e', 'x', 't', ' ', 'm', 'o', 'n', 't', 'h'], ['s', 'e', 'p', 't', 'e', 'm', 'b', 'e', 'r', 'i'], ['t', 'h', 'i', 's', ' ', 'm', 'o', 'n', 't', 'h'], ['a', 'u', 'g', 'u', 's', 't', 'u', 's', 'i'], ['d', 'e', 'c', 'e', 'm', 'b', 'e', 'r', 'i'], ['l', 'a', 's', 't', ' ', 'w', 'e', 'e', 'k'], ['l', 'a', 's', 't', ' ', 'y', 'e', 'a', 'r'], ['n', 'e', 'x', 't', ' ', 'w', 'e', 'e', 'k'], ['n', 'e', 'x', 't', ' ', 'y', 'e', 'a', 'r'], ['n', 'o', 'v', 'e', 'm', 'b', 'e', 'r', 'i'], ['t', 'h', 'i', 's', ' ', 'h', 'o', 'u', 'r'], ['t', 'h', 'i', 's', ' ', 'w', 'e', 'e', 'k'], ['t', 'h', 'i', 's', ' ', 'y', 'e', 'a', 'r'], ['y', 'e', 's', 't', 'e', 'r', 'd', 'a', 'y'], ['f', 'e', 'b', 'r', 'u', 'a', 'r', 'i'], ['o', 'k', 't', 'o', 'b', 'e', 'r', 'i'], ['t', 'o', 'm', 'o', 'r', 'r', 'o', 'w'], ['j', 'a', 'n', 'u', 'a', 'r', 'i'], ['a', 'p', 'r', 'i', 'l', 'i'], ['m', 'a', 'r', 't', 's', 'i'], ['m', 'i', 'n', 'u', 't', 'e'], ['s', 'a', 'b', 'a', 'a', 't'], ['s', 'e', 'c', 'o', 'n', 'd'], ['m', 'o', 'n', 't', 'h'], ['t', 'o', 'd', 'a', 'y'], ['h', 'o', 'u', 'r'], ['j', 'u', 'l', 'i'], ['j', 'u', 'n', 'i'], ['m', 'a', 'j', 'i'], ['w', 'e', 'e', 'k'], ['y', 'e', 'a', 'r'], ['a', 'p', 'r'], ['a', 'r', 'f'], ['a', 't', 'a'], ['a', 'u', 'g'], ['d', 'a', 'y'], ['d', 'e', 'c'], ['f', 'e', 'b'], ['g', 'm', 't'], ['j', 'a', 'n'], ['j', 'u', 'l'], ['j', 'u', 'n'], ['m', 'a', 'j'], ['m', 'a', 'r'], ['n', 'o', 'v'], ['n', 'o', 'w'], ['o', 'k', 't'], ['p', 'i', 'n'], ['s', 'a', 'b'], ['s', 'e', 'p'], ['s', 'i', 's'], ['t', 'a', 'l'], ['u', 't', 'c'], ['a', 'm'], ['p', 'm'], [' '], ['\''], ['+'], [','], ['-'], ['.'], ['/'], [':'], [';'], ['@'], ['['], [']'], ['z'], ['|']] }

/-- internal/data/kln.go: `kln_Locale`. -/
def klnLang : LangData := { klnDict with
  knownWords :=
   [['k', 'i', 'p', 's', 'u', 'u', 'n', 'd', 'e', ' ', 'n', 'e', 'b', 'o', ' ', 'a', 'e', 'n', 'g', '\''], ['k', 'i', 'p', 's', 'u', 'u', 'n', 'd', 'e', ' ', 'n', 'e', ' ', 't', 'a', 'a', 'i'], ['t', 'h', 'i', 's', ' ', 'm', 'i', 'n', 'u', 't', 'e'], ['k', 'o', 'o', 's', 'k', 'o', 'l', 'i', 'n', 'y'], ['l', 'a', 's', 't', ' ', 'm', 'o', 'n', 't', 'h'], ['n', 'e', 'x', 't', ' ', 'm', 'o', 'n', 't', 'h'], ['n', 'g', '\'', 'a', 't', 'y', 'a', 'a', 't', 'o'], ['t', 'h', 'i', 's', ' ', 'm', 'o', 'n', 't', 'h'], ['i', 'w', 'o', 'o', 't', 'k', 'u', 'u', 't'], ['k', 'o', 'a', 'n', 'g', '\'', 'w', 'a', 'n'], ['l', 'a', 's', 't', ' ', 'w', 'e', 'e', 'k'], ['l', 'a', 's', 't', ' ', 'y', 'e', 'a', 'r'], ['n', 'e', 'x', 't', ' ', 'w', 'e', 'e', 'k'], ['n', 'e', 'x', 't', ' ', 'y', 'e', 'a', 'r'], ['n', 'g', '\'', 'e', 'i', 'y', 'e', 'e', 't'], ['t', 'h', 'i', 's', ' ', 'h', 'o', 'u', 'r'], ['t', 'h', 'i', 's', ' ', 'w', 'e', 'e', 'k'], ['t', 'h', 'i', 's', ' ', 'y', 'e', 'a', 'r'], ['k', 'i', 'p', 't', 'a', 'a', 'm', 'o'], ['s', 'e', 'k', 'o', 'n', 'd', 'i', 't'], ['k', 'o', 'a', 'e', 'n', 'g', '\''], ['k', 'o', 's', 'o', 'm', 'o', 'k'], ['k', 'o', 't', 'i', 's', 'a', 'p'], ['m', 'i', 'n', 'i', 't', 'i', 't'], ['r', 'o', 'o', 'p', 't', 'u', 'i'], ['a', 'r', 'a', 'w', 'e', 't'], ['b', 'u', 'r', 'e', 'e', 't'], ['e', 'p', 'e', 'e', 's', 'o'], ['k', 'a', 'r', 'o', 'o', 'n'], ['k', 'e', 'n', 'y', 'i', 't'], ['k', 'o', 'm', 'u', 'u', 't'], ['k', 'o', 't', 'a', 'a', 'i'], ['m', 'a', 'm', 'u', 'u', 't'], ['m', 'u', 'l', 'g', 'u', 'l'], ['b', 'e', 't', 'u', 't'], ['k', 'o', 'o', 's', 'k'], ['m', 'u', 't', 'a', 'i'], ['p', 'a', 'a', 'g', 'i'], ['r', 'a', 'i', 'n', 'i'], ['w', 'i', 'k', 'i', 't'], ['a', 'm', 'u', 't'], ['k', 'o', 'l', 'o'], ['n', 'g', 'a', 't'], ['s', 'a', 'i', 't'], ['b', 'u', 'r'], ['e', 'p', 'e'], ['g', 'm', 't'], ['i', 'w', 'o'], ['k', 'o', 'a'], ['k', 'o', 'l'], ['k', 'o', 'm'], ['k', 'o', 'o'], ['k', 'o', 's'], ['k', 'o', 't'], ['k', 'p', 'a'], ['k', 'p', 't'], ['k', 'r', 'n'], ['k', 't', 's'], ['m', 'a', 'm'], ['m', 'u', 'l'], ['n', 'g', 'e'], ['n', 'o', 'w'], ['p', 'a', 'a'], ['r', 'o', 'o'], ['t', 'a', 'a'], ['u', 't', 'c'], ['a', 'm'], ['p', 'm'], [' '], ['\''], ['+'], [','], ['-'], ['.'], ['/'], [':'], [';'], ['@'], ['['], [']'], ['z'], ['|']] }

/-- internal/data/km.go: `km_Locale`. -/
def kmLang : LangData := { kmDict with
  relativeRegexes :=
   [(.seqs [.lit ['ក', 'ន', 'ង', (Char.ofNat 0x200b), 'រ', 'យ', 'ៈ', (Char.ofNat 0x200b), 'ព', 'េ', 'ល', ' '], .grp 1 (.number), .lit [' ', 'ម', 'ោ', 'ង']], [.lit ['i', 'n', ' '], .ref 1, .lit [' ', 'h', 'o', 'u', 'r']]),
    (.seqs [.grp 1 (.number), .lit [' ', 'ស', 'ប', 'ដ', 'ា', 'ហ', 'ទ', 'ៀ', 'ត']], [.lit ['i', 'n', ' '], .ref 1, .lit [' ', 'w', 'e', 'e', 'k']]),
    (.seqs [.grp 1 (.number), .lit [' ', 'ស', 'ប', 'ដ', 'ា', 'ហ', (Char.ofNat 0x200b), 'ម', 'ន']], [.ref 1, .lit [' ', 'w', 'e', 'e', 'k', ' ', 'a', 'g', 'o']]),
    (.seqs [.grp 1 (.number), .lit [' ', 'ថ', 'ង', 'ៃ', (Char.ofNat 0x200b), (Char.ofNat 0x200b), 'ម', 'ន']], [.ref 1, .lit [' ', 'd', 'a', 'y', ' ', 'a', 'g', 'o']]),
    (.seqs [.grp 1 (.number), .lit [' ', 'ន', 'ា', 'ទ', (Char.ofNat 0x200b), (Char.ofNat 0x200b), 'ម', 'ន']], [.ref 1, .lit [' ', 'm', 'i', 'n', 'u', 't', 'e', ' ', 'a', 'g', 'o']]),
    (.seqs [.grp 1 (.number), .lit [' ', 'វ', 'ន', 'ា', 'ទ', 'ទ', 'ៀ', 'ត']], [.lit ['i', 'n', ' '], .ref 1, .lit [' ', 's', 'e', 'c', 'o', 'n', 'd']]),
    (.seqs [.grp 1 (.number), .lit [' ', 'វ', 'ន', 'ា', 'ទ', (Char.ofNat 0x200b), 'ម', 'ន']], [.ref 1, .lit [' ', 's', 'e', 'c', 'o', 'n', 'd', ' ', 'a', 'g', 'o']]),
    (.seqs [.grp 1 (.number), .lit [' ', 'ឆ', 'ន', 'ា', 'ទ', 'ៀ', 'ត']], [.lit ['i', 'n', ' '], .ref 1, .lit [' ', 'y', 'e', 'a', 'r']]),
    (.seqs [.grp 1 (.number), .lit [' ', 'ឆ', 'ន', 'ា', (Char.ofNat 0x200b), 'ម', 'ន']], [.ref 1, .lit [' ', 'y', 'e', 'a', 'r', ' ', 'a', 'g', 'o']]),
    (.seqs [.grp 1 (.number), .lit [' ', 'ថ', 'ង', 'ៃ', 'ទ', 'ៀ', 'ត']], [.lit ['i', 'n', ' '], .ref 1, .lit [' ', 'd', 'a', 'y']]),
    (.seqs [.grp 1 (.number), .lit [' ', 'ថ', 'ង', 'ៃ', (Char.ofNat 0x200b), 'ម', 'ន']], [.ref 1, .lit [' ', 'd', 'a', 'y', ' ', 'a', 'g', 'o']]),
    (.seqs [.grp 1 (.number), .lit [' ', 'ន', 'ា', 'ទ', 'ទ', 'ៀ', 'ត']], [.lit ['i', 'n', ' '], .ref 1, .lit [' ', 'm', 'i', 'n', 'u', 't', 'e']]),
    (.seqs [.grp 1 (.number), .lit [' ', 'ន', 'ា', 'ទ', (Char.ofNat 0x200b), 'ម', 'ន']], [.ref 1, .lit [' ', 'm', 'i', 'n', 'u', 't', 'e', ' ', 'a', 'g', 'o']]),
    (.seqs [.grp 1 (.number), .lit [' ', 'ម', 'ោ', 'ង', 'ទ', 'ៀ', 'ត']], [.lit ['i', 'n', ' '], .ref 1, .lit [' ', 'h', 'o', 'u', 'r']]),
    (.seqs [.grp 1 (.number), .lit [' ', 'ម', 'ោ', 'ង', (Char.ofNat 0x200b), 'ម', 'ន']], [.ref 1, .lit [' ', 'h', 'o', 'u', 'r', ' ', 'a', 'g', 'o']]),
    (.seqs [.grp 1 (.number), .lit [' ', 'ខ', 'ែ', 'ទ', 'ៀ', 'ត']], [.lit ['i', 'n', ' '], .ref 1, .lit [' ', 'm', 'o', 'n', 't', 'h']]),
    (.seqs [.grp 1 (.number), .lit [' ', 'ខ', 'ែ', 'ម', 'ន']], [.ref 1, .lit [' ', 'm', 'o', 'n', 't', 'h', ' ', 'a', 'g', 'o']])],
  rxCombined := some (.seqs [.grp 1 (.alts [.bos, .cls true [.letter, .mark, .digit], .lit ['_']]), .grp 2 (.alts [.seqs [.lit ['ក', 'ន', 'ង', (Char.ofNat 0x200b), 'រ', 'យ', 'ៈ', (Char.ofNat 0x200b), 'ព', 'េ', 'ល', ' '], .number, .lit [' ', 'ម', 'ោ', 'ង']], .seqs [.number, .lit [' ', 'ស', 'ប', 'ដ', 'ា', 'ហ', 'ទ', 'ៀ', 'ត']], .seqs [.number, .lit [' ', 'ស', 'ប', 'ដ', 'ា', 'ហ', (Char.ofNat 0x200b), 'ម', 'ន']], .seqs [.number, .lit [' ', 'ថ', 'ង', 'ៃ', (Char.ofNat 0x200b), (Char.ofNat 0x200b), 'ម', 'ន']], .seqs [.number, .lit [' ', 'ន', 'ា', 'ទ', (Char.ofNat 0x200b), (Char.ofNat 0x200b), 'ម', 'ន']], .seqs [.number, .lit [' ', 'វ', 'ន', 'ា', 'ទ', 'ទ', 'ៀ', 'ត']], .seqs [.number, .lit [' ', 'វ', 'ន', 'ា', 'ទ', (Char.ofNat 0x200b), 'ម', 'ន']], .seqs [.number, .lit [' ', 'ឆ', 'ន', 'ា', 'ទ', 'ៀ', 'ត']], .seqs [.number, .lit [' ', 'ឆ', 'ន', 'ា', (Char.ofNat 0x200b), 'ម', 'ន']], .seqs [.number, .lit [' ', 'ថ', 'ង', 'ៃ', 'ទ', 'ៀ', 'ត']], .seqs [.number, .lit [' ', 'ថ', 'ង', 'ៃ', (Char.ofNat 0x200b), 'ម', 'ន']], .seqs [.number, .lit [' ', 'ន', 'ា', 'ទ', 'ទ', 'ៀ', 'ត']], .seqs [.number, .lit [' ', 'ន', 'ា', 'ទ', (Char.ofNat 0x200b), 'ម', 'ន']], .seqs [.number, .lit [' ', 'ម', 'ោ', 'ង', 'ទ', 'ៀ', 'ត']], .seqs [.number, .lit [' ', 'ម', 'ោ', 'ង', (Char.ofNat 0x200b), 'ម', 'ន']], .seqs [.number, .lit [' ', 'ខ', 'ែ', 'ទ', 'ៀ', 'ត']], .seqs [.number, .lit [' ', 'ខ', 'ែ', 'ម', 'ន']]]), .grp 3 (.alts [.eos, .cls true [.letter, .mark, .digit], .lit ['_']])], 3),
  rxExact := some (.seqs [.bos, .grp 1 (.alts [.seqs [.lit ['ក', 'ន', 'ង', (Char.ofNat 0x200b), 'រ', 'យ', 'ៈ', (Char.ofNat 0x200b), 'ព', 'េ', 'ល', ' '], .number, .lit [' ', 'ម', 'ោ', 'ង']], .seqs [.number, .lit [' ', 'ស', 'ប', 'ដ', 'ា', 'ហ', 'ទ', 'ៀ', 'ត']], .seqs [.number, .lit [' ', 'ស', 'ប', 'ដ', 'ា', 'ហ', (Char.ofNat 0x200b), 'ម', 'ន']], .seqs [.number, .lit [' ', 'ថ', 'ង', 'ៃ', (Char.ofNat 0x200b), (Char.ofNat 0x200b), 'ម', 'ន']], .seqs [.number, .lit [' ', 'ន', 'ា', 'ទ', (Char.ofNat 0x200b), (Char.ofNat 0x200b), 'ម', 'ន']], .seqs [.number, .lit [' ', 'វ', 'ន', 'ា', 'ទ', 'ទ', 'ៀ', 'ត']], .seqs [.number, .lit [' ', 'វ', 'ន', 'ា', 'ទ', (Char.ofNat 0x200b), 'ម', 'ន']], .seqs [.number, .lit [' ', 'ឆ', 'ន', 'ា', 'ទ', 'ៀ', 'ត']], .seqs [.number, .lit [' ', 'ឆ', 'ន', 'ា', (Char.ofNat 0x200b), 'ម', 'ន']], .seqs [.number, .lit [' ', 'ថ', 'ង', 'ៃ', 'ទ', 'ៀ', 'ត']], .seqs [.number, .lit [' ', 'ថ', 'ង', 'ៃ', (Char.ofNat 0x200b), 'ម', 'ន']], .seqs [.number, .lit [' ', 'ន', 'ា', 'ទ', 'ទ', 'ៀ', 'ត']], .seqs [.number, .lit [' ', 'ន', 'ា', 'ទ', (Char.ofNat 0x200b), 'ម', 'ន']], .seqs [.number, .lit [' ', 'ម', 'ោ', 'ង', 'ទ', 'ៀ', 'ត']], .seqs [.number, .lit [' ', 'ម', 'ោ', 'ង', (Char.ofNat 0x200b), 'ម', 'ន']], .seqs [.number, .lit [' ', 'ខ', 'ែ', 'ទ', 'ៀ', 'ត']], .seqs [.number, .lit [' ', 'ខ', 'ែ', 'ម', 'ន']]]), .eos]),
  knownWords :=
   [['ស', 'ប', 'ដ', 'ា', 'ហ', (Char.ofNat 0x200b), 'ក', 'រ', 'ោ', 'យ'], ['ស', 'ប', 'ដ', 'ា', 'ហ', (Char.ofNat 0x200b), 'ន', 'េ', 'ះ'], ['ឆ', 'ន', 'ា', (Char.ofNat 0x200b), 'ក', 'រ', 'ោ', 'យ'], ['ថ', 'ង', 'ៃ', (Char.ofNat 0x200b), 'ស', 'អ', 'ែ', 'ក'], ['ស', 'ប', 'ដ', 'ា', 'ហ', (Char.ofNat 0x200b), 'ម', 'ន'], ['ខ', 'ែ', (Char.ofNat 0x200b), 'ក', 'រ', 'ោ', 'យ'], ['ឆ', 'ន', 'ា', (Char.ofNat 0x200b), 'ន', 'េ', 'ះ'], ['ថ', 'ង', 'ៃ', 'ស', 'អ', 'ែ', 'ក'], ['ថ', 'ង', 'ៃ', (Char.ofNat 0x200b), 'ន', 'េ', 'ះ'], ['ខ', 'ែ', (Char.ofNat 0x200b), 'ន', 'េ', 'ះ'], ['ឆ', 'ន', 'ា', (Char.ofNat 0x200b), 'ម', 'ន'], ['ន', 'ា', 'ទ', 'ន', 'េ', 'ះ'], ['ព', 'រ', 'ហ', 'ស', 'ប', 'ត'], ['ម', 'ោ', 'ង', 'ន', 'េ', 'ះ'], ['ក', 'ក', 'ក', 'ដ', 'ា'], ['ខ', 'ែ', (Char.ofNat 0x200b), 'ម', 'ន'], ['ម', 'ស', 'ល', 'ម', 'ញ'], ['វ', 'ច', 'ឆ', 'ក', 'ា'], ['ស', 'ប', 'ដ', 'ា', 'ហ'], ['អ', 'ង', 'គ', 'ា', 'រ'], ['អ', 'ា', 'ទ', 'ត', 'យ'], ['ក', 'ញ', 'ញ', 'ា'], ['ក', 'ម', 'ភ', 'ៈ'], ['ម', 'ក', 'រ', 'ា'], ['ម', 'ថ', 'ន', 'ា'], ['ម', 'េ', 'ស', 'ា'], ['វ', 'ន', 'ា', 'ទ'], ['ឧ', 'ស', 'ភ', 'ា'], ['g', 'm', 't'], ['u', 't', 'c'], ['ច', 'ន', 'ទ'], ['ឆ', 'ន', 'ា'], ['ត', 'ល', 'ា'], ['ថ', 'ង', 'ៃ'], ['ន', 'ា', 'ទ'], ['ម', 'ន', 'ា'], ['ម', 'ោ', 'ង'], ['ស', 'ក', 'រ'], ['ស', 'ហ', 'ា'], ['ស', 'ៅ', 'រ'], ['ឥ', 'ឡ', 'វ'], ['a', 'm'], ['p', 'm'], ['ខ', 'ែ'], ['ធ', 'ន'], ['ព', 'ធ'], [' '], ['\''], ['+'], [','], ['-'], ['.'], ['/'], [':'], [';'], ['@'], ['['], [']'], ['z'], ['|']] }

/-- internal/data/kn.go: `kn_Locale`. -/
def knLang : LangData := { knDict with
  relativeRegexes :=
   [(.seqs [.grp 1 (.number), .lit [' ', 'ತ', 'ಂ', 'ಗ', 'ಳ', 'ು', 'ಗ', 'ಳ', ' ', 'ಹ', 'ಂ', 'ದ']], [.ref 1, .lit [' ', 'm', 'o', 'n', 't', 'h', ' ', 'a', 'g', 'o']]),
    (.seqs [.grp 1 (.number), .lit [' ', 'ಸ', 'ಕ', 'ಂ', 'ಡ', 'ು', 'ಗ', 'ಳ', ' ', 'ಹ', 'ಂ', 'ದ']], [.ref 1, .lit [' ', 's', 'e', 'c', 'o', 'n', 'd', ' ', 'a', 'g', 'o']]),
    (.seqs [.grp 1 (.number), .lit [' ', 'ಗ', 'ಂ', 'ಟ', 'ಗ', 'ಳ', ' ', 'ಹ', 'ಂ', 'ದ']], [.ref 1, .lit [' ', 'h', 'o', 'u', 'r', ' ', 'a', 'g', 'o']]),
    (.seqs [.grp 1 (.number), .lit [' ', 'ತ', 'ಂ', 'ಗ', 'ಳ', 'ು', ' ', 'ಹ', 'ಂ', 'ದ']], [.ref 1, .lit [' ', 'm', 'o', 'n', 't', 'h', ' ', 'a', 'g', 'o']]),
    (.seqs [.grp 1 (.number), .lit [' ', 'ತ', 'ಂ', 'ಗ', 'ಳ', 'ು', 'ಗ', 'ಳ', 'ಲ', 'ಲ']], [.lit ['i', 'n', ' '], .ref 1, .lit [' ', 'm', 'o', 'n', 't', 'h']]),
    (.seqs [.grp 1 (.number), .lit [' ', 'ನ', 'ಮ', 'ಷ', 'ಗ', 'ಳ', ' ', 'ಹ', 'ಂ', 'ದ']], [.ref 1, .lit [' ', 'm', 'i', 'n', 'u', 't', 'e', ' ', 'a', 'g', 'o']]),
    (.seqs [.grp 1 (.number), .lit [' ', 'ವ', 'ರ', 'ಷ', 'ಗ', 'ಳ', ' ', 'ಹ', 'ಂ', 'ದ']], [.ref 1, .lit [' ', 'y', 'e', 'a', 'r', ' ', 'a', 'g', 'o']]),
    (.seqs [.grp 1 (.number), .lit [' ', 'ವ', 'ಾ', 'ರ', 'ಗ', 'ಳ', ' ', 'ಹ', 'ಂ', 'ದ']], [.ref 1, .lit [' ', 'w', 'e', 'e', 'k', ' ', 'a', 'g', 'o']]),
    (.seqs [.grp 1 (.number), .lit [' ', 'ಸ', 'ಕ', 'ಂ', 'ಡ', (Char.ofNat 0x200c), 'ಗ', 'ಳ', 'ಲ', 'ಲ']], [.lit ['i', 'n', ' '], .ref 1, .lit [' ', 's', 'e', 'c', 'o', 'n', 'd']]),
    (.seqs [.grp 1 (.number), .lit [' ', 'ತ', 'ಂ', 'ಗ', 'ಳ', ' ', 'ಹ', 'ಂ', 'ದ']], [.ref 1, .lit [' ', 'm', 'o', 'n', 't', 'h', ' ', 'a', 'g', 'o']]),
    (.seqs [.grp 1 (.number), .lit [' ', 'ದ', 'ನ', 'ಗ', 'ಳ', ' ', 'ಹ', 'ಂ', 'ದ']], [.ref 1, .lit [' ', 'd', 'a', 'y', ' ', 'a', 'g', 'o']]),
    (.seqs [.grp 1 (.number), .lit [' ', 'ನ', 'ಮ', 'ಷ', 'ದ', ' ', 'ಹ', 'ಂ', 'ದ']], [.ref 1, .lit [' ', 'm', 'i', 'n', 'u', 't', 'e', ' ', 'a', 'g', 'o']]),
    (.seqs [.grp 1 (.number), .lit [' ', 'ವ', 'ರ', 'ಷ', 'ದ', ' ', 'ಹ', 'ಂ', 'ದ']], [.ref 1, .lit [' ', 'y', 'e', 'a', 'r', ' ', 'a', 'g', 'o']]),
    (.seqs [.grp 1 (.number), .lit [' ', 'ವ', 'ಾ', 'ರ', 'ದ', ' ', 'ಹ', 'ಂ', 'ದ']], [.ref 1, .lit [' ', 'w', 'e', 'e', 'k', ' ', 'a', 'g', 'o']]),
    (.seqs [.grp 1 (.number), .lit [' ', 'ಸ', 'ಕ', 'ಂ', 'ಡ', ' ', 'ಹ', 'ಂ', 'ದ']], [.ref 1, .lit [' ', 's', 'e', 'c', 'o', 'n', 'd', ' ', 'a', 'g', 'o']]),
    (.seqs [.grp 1 (.number), .lit [' ', 'ಸ', 'ಕ', 'ಂ', 'ಡ', (Char.ofNat 0x200c), 'ನ', 'ಲ', 'ಲ']], [.lit ['i', 'n', ' '], .ref 1, .lit [' ', 's', 'e', 'c', 'o', 'n', 'd']]),
    (.seqs [.grp 1 (.number), .lit [' ', 'ಗ', 'ಂ', 'ಟ', ' ', 'ಹ', 'ಂ', 'ದ']], [.ref 1, .lit [' ', 'h', 'o', 'u', 'r', ' ', 'a', 'g', 'o']]),
    (.seqs [.grp 1 (.number), .lit [' ', 'ಗ', 'ಂ', 'ಟ', 'ಗ', 'ಳ', 'ಲ', 'ಲ']], [.lit ['i', 'n', ' '], .ref 1, .lit [' ', 'h', 'o', 'u', 'r']]),
    (.seqs [.grp 1 (.number), .lit [' ', 'ದ', 'ನ', 'ದ', ' ', 'ಹ', 'ಂ', 'ದ']], [.ref 1, .lit [' ', 'd', 'a', 'y', ' ', 'a', 'g', 'o']]),
    (.seqs [.grp 1 (.number), .lit [' ', 'ನ', 'ಮ', 'ಷ', 'ಗ', 'ಳ', 'ಲ', 'ಲ']], [.lit ['i', 'n', ' '], .ref 1, .lit [' ', 'm', 'i', 'n', 'u', 't', 'e']]),
    (.seqs [.grp 1 (.number), .lit [' ', 'ವ', 'ರ', 'ಷ', 'ಗ', 'ಳ', 'ಲ', 'ಲ']], [.lit ['i', 'n', ' '], .ref 1, .lit [' ', 'y', 'e', 'a', 'r']]),
    (.seqs [.grp 1 (.number), .lit [' ', 'ವ', 'ಾ', 'ರ', 'ಗ', 'ಳ', 'ಲ', 'ಲ']], [.lit ['i', 'n', ' '], .ref 1, .lit [' ', 'w', 'e', 'e', 'k']]),
    (.seqs [.grp 1 (.number), .lit [' ', 'ಗ', 'ಂ', 'ಟ', 'ಯ', 'ಲ', 'ಲ']], [.lit ['i', 'n', ' '], .ref 1, .lit [' ', 'h', 'o', 'u', 'r']]),
    (.seqs [.grp 1 (.number), .lit [' ', 'ತ', 'ಂ', 'ಗ', 'ಳ', 'ಲ', 'ಲ']], [.lit ['i', 'n', ' '], .ref 1, .lit [' ', 'm', 'o', 'n', 't', 'h']]),
    (.seqs [.grp 1 (.number), .lit [' ', 'ದ', 'ನ', 'ಗ', 'ಳ', 'ಲ', 'ಲ']], [.lit ['i', 'n', ' '], .ref 1, .lit [' ', 'd', 'a', 'y']]),
    (.seqs [.grp 1 (.number), .lit [' ', 'ನ', 'ಮ', 'ಷ', 'ದ', 'ಲ', 'ಲ']], [.lit ['i', 'n', ' '], .ref 1, .lit [' ', 'm', 'i', 'n', 'u', 't', 'e']]),
    (.seqs [.grp 1 (.number), .lit [' ', 'ವ', 'ರ', 'ಷ', 'ದ', 'ಲ', 'ಲ']], [.lit ['i', 'n', ' '], .ref 1, .lit [' ', 'y', 'e', 'a', 'r']]),
    (.seqs [.grp 1 (.number), .lit [' ', 'ವ', 'ಾ', 'ರ', 'ದ', 'ಲ', 'ಲ']], [.lit ['i', 'n', ' '], .ref 1, .lit [' ', 'w', 'e', 'e', 'k']]),
    (.seqs [.grp 1 (.number), .lit [' ', 'ದ', 'ನ', 'ದ', 'ಲ', 'ಲ']], [.lit ['i', 'n', ' '], .ref 1, .lit [' ', 'd', 'a', 'y']])],
  rxCombined := some (.seqs [.grp 1 (.alts [.bos, .cls true [.letter, .mark, .digit], .lit ['_']]), .grp 2 (.alts [.seqs [.number, .lit [' ', 'ತ', 'ಂ', 'ಗ', 'ಳ', 'ು', 'ಗ', 'ಳ', ' ', 'ಹ', 'ಂ', 'ದ']], .seqs [.number, .lit [' ', 'ಸ', 'ಕ', 'ಂ', 'ಡ', 'ು', 'ಗ', 'ಳ', ' ', 'ಹ', 'ಂ', 'ದ']], .seqs [.number, .lit [' ', 'ಗ', 'ಂ', 'ಟ', 'ಗ', 'ಳ', ' ', 'ಹ', 'ಂ', 'ದ']], .seqs [.number, .lit [' ', 'ತ', 'ಂ', 'ಗ', 'ಳ', 'ು', ' ', 'ಹ', 'ಂ', 'ದ']], .seqs [.number, .lit [' ', 'ತ', 'ಂ', 'ಗ', 'ಳ', 'ು', 'ಗ', 'ಳ', 'ಲ', 'ಲ']], .seqs [.number, .lit [' ', 'ನ', 'ಮ', 'ಷ', 'ಗ', 'ಳ', ' ', 'ಹ', 'ಂ', 'ದ']], .seqs [.number, .lit [' ', 'ವ', 'ರ', 'ಷ', 'ಗ', 'ಳ', ' ', 'ಹ', 'ಂ', 'ದ']], .seqs [.number, .lit [' ', 'ವ', 'ಾ', 'ರ', 'ಗ', 'ಳ', ' ', 'ಹ', 'ಂ', 'ದ']], .seqs [.number, .lit [' ', 'ಸ', 'ಕ', 'ಂ', 'ಡ', (Char.ofNat 0x200c), 'ಗ', 'ಳ', 'ಲ', 'ಲ']], .seqs [.number, .lit [' ', 'ತ', 'ಂ', 'ಗ', 'ಳ', ' ', 'ಹ', 'ಂ', 'ದ']], .seqs [.number, .lit [' ', 'ದ', 'ನ', 'ಗ', 'ಳ', ' ', 'ಹ', 'ಂ', 'ದ']], .seqs [.number, .lit [' ', 'ನ', 'ಮ', 'ಷ', 'ದ', ' ', 'ಹ', 'ಂ', 'ದ']], .seqs [.number, .lit [' ', 'ವ', 'ರ', 'ಷ', 'ದ', ' ', 'ಹ', 'ಂ', 'ದ']], .seqs [.number, .lit [' ', 'ವ', 'ಾ', 'ರ', 'ದ', ' ', 'ಹ', 'ಂ', 'ದ']], .seqs [.number, .lit [' ', 'ಸ', 'ಕ', 'ಂ', 'ಡ', ' ', 'ಹ', 'ಂ', 'ದ']], .seqs [.number, .lit [' ', 'ಸ', 'ಕ', 'ಂ', 'ಡ', (Char.ofNat 0x200c), 'ನ', 'ಲ', 'ಲ']], .seqs [.number, .lit [' ', 'ಗ', 'ಂ', 'ಟ', ' ', 'ಹ', 'ಂ', 'ದ']], .seqs [.number, .lit [' ', 'ಗ', 'ಂ', 'ಟ', 'ಗ', 'ಳ', 'ಲ', 'ಲ']], .seqs [.number, .lit [' ', 'ದ', 'ನ', 'ದ', ' ', 'ಹ', 'ಂ', 'ದ']], .seqs [.number, .lit [' ', 'ನ', 'ಮ', 'ಷ', 'ಗ', 'ಳ', 'ಲ', 'ಲ']], .seqs [.number, .lit [' ', 'ವ', 'ರ', 'ಷ', 'ಗ', 'ಳ', 'ಲ', 'ಲ']], .seqs [.number, .lit [' ', 'ವ', 'ಾ', 'ರ', 'ಗ', 'ಳ', 'ಲ', 'ಲ']], .seqs [.number, .lit [' ', 'ಗ', 'ಂ', 'ಟ', 'ಯ', 'ಲ', 'ಲ']], .seqs [.number, .lit [' ', 'ತ', 'ಂ', 'ಗ', 'ಳ', 'ಲ', 'ಲ']], .seqs [.number, .lit [' ', 'ದ', 'ನ', 'ಗ', 'ಳ', 'ಲ', 'ಲ']], .seqs [.number, .lit [' ', 'ನ', 'ಮ', 'ಷ', 'ದ', 'ಲ', 'ಲ']], .seqs [.number, .lit [' ', 'ವ', 'ರ', 'ಷ', 'ದ', 'ಲ', 'ಲ']], .seqs [.number, .lit [' ', 'ವ', 'ಾ', 'ರ', 'ದ', 'ಲ', 'ಲ']], .seqs [.number, .lit [' ', 'ದ', 'ನ', 'ದ', 'ಲ', 'ಲ']]]), .grp 3 (.alts [.eos, .cls true [.letter, .mark, .digit], .lit ['_']])], 3),
  rxExact := some (.seqs [.bos, .grp 1 (.alts [.seqs [.number, .lit [' ', 'ತ', 'ಂ', 'ಗ', 'ಳ', 'ು', 'ಗ', 'ಳ', ' ', 'ಹ', 'ಂ', 'ದ']], .seqs [.number, .lit [' ', 'ಸ', 'ಕ', 'ಂ', 'ಡ', 'ು', 'ಗ', 'ಳ', ' ', 'ಹ', 'ಂ', 'ದ']], .seqs [.number, .lit [' ', 'ಗ', 'ಂ', 'ಟ', 'ಗ', 'ಳ', ' ', 'ಹ', 'ಂ', 'ದ']], .seqs [.number, .lit [' ', 'ತ', 'ಂ', 'ಗ', 'ಳ', 'ು', ' ', 'ಹ', 'ಂ', 'ದ']], .seqs [.number, .lit [' ', 'ತ', 'ಂ', 'ಗ', 'ಳ', 'ು', 'ಗ', 'ಳ', 'ಲ', 'ಲ']], .seqs [.number, .lit [' ', 'ನ', 'ಮ', 'ಷ', 'ಗ', 'ಳ', ' ', 'ಹ', 'ಂ', 'ದ']], .seqs [.number, .lit [' ', 'ವ', 'ರ', 'ಷ', 'ಗ', 'ಳ', ' ', 'ಹ', 'ಂ', 'ದ']], .seqs [.number, .lit [' ', 'ವ', 'ಾ', 'ರ', 'ಗ', 'ಳ', ' ', 'ಹ', 'ಂ', 'ದ']], .seqs [.number, .lit [' ', 'ಸ', 'ಕ', 'ಂ', 'ಡ', (Char.ofNat 0x200c), 'ಗ', 'ಳ', 'ಲ', 'ಲ']], .seqs [.number, .lit [' ', 'ತ', 'ಂ', 'ಗ', 'ಳ', ' ', 'ಹ', 'ಂ', 'ದ']], .seqs [.number, .lit [' ', 'ದ', 'ನ', 'ಗ', 'ಳ', ' ', 'ಹ', 'ಂ', 'ದ']], .seqs [.number, .lit [' ', 'ನ', 'ಮ', 'ಷ', 'ದ', ' ', 'ಹ', 'ಂ', 'ದ']], .seqs [.number, .lit [' ', 'ವ', 'ರ', 'ಷ', 'ದ', ' ', 'ಹ', 'ಂ', 'ದ']], .seqs [.number, .lit [' ', 'ವ', 'ಾ', 'ರ', 'ದ', ' ', 'ಹ', 'ಂ', 'ದ']], .seqs [.number, .lit [' ', 'ಸ', 'ಕ', 'ಂ', 'ಡ', ' ', 'ಹ', 'ಂ', 'ದ']], .seqs [.number, .lit [' ', 'ಸ', 'ಕ', 'ಂ', 'ಡ', (Char.ofNat 0x200c), 'ನ', 'ಲ', 'ಲ']], .seqs [.number, .lit [' ', 'ಗ', 'ಂ', 'ಟ', ' ', 'ಹ', 'ಂ', 'ದ']], .seqs [.number, .lit [' ', 'ಗ', 'ಂ', 'ಟ', 'ಗ', 'ಳ', 'ಲ', 'ಲ']], .seqs [.number, .lit [' ', 'ದ', 'ನ', 'ದ', ' ', 'ಹ', 'ಂ', 'ದ']], .seqs [.number, .lit [' ', 'ನ', 'ಮ', 'ಷ', 'ಗ', 'ಳ', 'ಲ', 'ಲ']], .seqs [.number, .lit [' ', 'ವ', 'ರ', 'ಷ', 'ಗ', 'ಳ', 'ಲ', 'ಲ']], .seqs [.number, .lit [' ', 'ವ', 'ಾ', 'ರ', 'ಗ', 'ಳ', 'ಲ', 'ಲ']], .seqs [.number, .lit [' ', 'ಗ', 'ಂ', 'ಟ', 'ಯ', 'ಲ', 'ಲ']], .seqs [.number, .lit [' ', 'ತ', 'ಂ', 'ಗ', 'ಳ', 'ಲ', 'ಲ']], .seqs [.number, .lit [' ', 'ದ', 'ನ', 'ಗ', 'ಳ', 'ಲ', 'ಲ']], .seqs [.number, .lit [' ', 'ನ', 'ಮ', 'ಷ', 'ದ', 'ಲ', 'ಲ']], .seqs [.number, .lit [' ', 'ವ', 'ರ', 'ಷ', 'ದ', 'ಲ', 'ಲ']], .seqs [.number, .lit [' ', 'ವ', 'ಾ', 'ರ', 'ದ', 'ಲ', 'ಲ']], .seqs [.number, .lit [' ', 'ದ', 'ನ', 'ದ', 'ಲ', 'ಲ']]]), .eos]),
  knownWords :=
   [['ಮ', 'ು', 'ಂ', 'ದ', 'ನ', ' ', 'ತ', 'ಂ', 'ಗ', 'ಳ', 'ು'], ['ಕ', 'ಳ', 'ದ', ' ', 'ತ', 'ಂ', 'ಗ', 'ಳ', 'ು'], ['ಮ', 'ು', 'ಂ', 'ದ', 'ನ', ' ', 'ವ', 'ರ', 'ಷ'], ['ಮ', 'ು', 'ಂ', 'ದ', 'ನ', ' ', 'ವ', 'ಾ', 'ರ'], ['ಹ', 'ಂ', 'ದ', 'ನ', ' ', 'ವ', 'ರ', 'ಷ'], ['ಅ', 'ಕ', 'ಟ', 'ೂ', 'ೕ', 'ಬ', 'ರ'], ['ಈ', ' ', 'ತ', 'ಂ', 'ಗ', 'ಳ', 'ು'], ['ಕ', 'ಳ', 'ದ', ' ', 'ವ', 'ರ', 'ಷ'], ['ಕ', 'ಳ', 'ದ', ' ', 'ವ', 'ಾ', 'ರ'], ['ಗ', 'ು', 'ರ', 'ು', 'ವ', 'ಾ', 'ರ'], ['ಪ', 'ೂ', 'ರ', 'ವ', 'ಾ', 'ಹ', 'ನ'], ['ಭ', 'ಾ', 'ನ', 'ು', 'ವ', 'ಾ', 'ರ'], ['ಮ', 'ಂ', 'ಗ', 'ಳ', 'ವ', 'ಾ', 'ರ'], ['ಶ', 'ು', 'ಕ', 'ರ', 'ವ', 'ಾ', 'ರ'], ['ಸ', 'ೂ', 'ೕ', 'ಮ', 'ವ', 'ಾ', 'ರ'], ['ಅ', 'ಪ', 'ರ', 'ಾ', 'ಹ', 'ನ'], ['ಬ', 'ು', 'ಧ', 'ವ', 'ಾ', 'ರ'], ['ಸ', 'ಪ', 'ಟ', 'ಂ', 'ಬ', 'ರ'], ['ಅ', 'ಕ', 'ಟ', 'ೂ', 'ೕ'], ['ಈ', ' ', 'ಗ', 'ಂ', 'ಟ'], ['ಈ', ' ', 'ನ', 'ಮ', 'ಷ'], ['ಈ', ' ', 'ವ', 'ರ', 'ಷ'], ['ಈ', ' ', 'ವ', 'ಾ', 'ರ'], ['ಡ', 'ಸ', 'ಂ', 'ಬ', 'ರ'], ['ತ', 'ಂ', 'ಗ', 'ಳ', 'ು'], ['ನ', 'ವ', 'ಂ', 'ಬ', 'ರ'], ['ಫ', 'ಬ', 'ರ', 'ವ', 'ರ'], ['ಶ', 'ನ', 'ವ', 'ಾ', 'ರ'], ['ಆ', 'ಗ', 'ಸ', 'ಟ'], ['ಇ', 'ಂ', 'ದ', 'ು'], ['ಏ', 'ಪ', 'ರ', 'ಲ'], ['ಗ', 'ು', 'ರ', 'ು'], ['ಜ', 'ನ', 'ವ', 'ರ'], ['ಜ', 'ು', 'ಲ', 'ೖ'], ['ಭ', 'ಾ', 'ನ', 'ು'], ['ಮ', 'ಂ', 'ಗ', 'ಳ'], ['ಮ', 'ಾ', 'ರ', 'ಚ'], ['ಶ', 'ು', 'ಕ', 'ರ'], ['ಸ', 'ಕ', 'ಂ', 'ಡ'], ['ಸ', 'ಪ', 'ಟ', 'ಂ'], ['ಸ', 'ೂ', 'ೕ', 'ಮ'], ['g', 'm', 't'], ['u', 't', 'c'], ['ಏ', 'ಪ', 'ರ'], ['ಗ', 'ಂ', 'ಟ'], ['ಜ', 'ೂ', 'ನ'], ['ಡ', 'ಸ', 'ಂ'], ['ನ', 'ನ', 'ನ'], ['ನ', 'ಮ', 'ಷ'], ['ನ', 'ವ', 'ಂ'], ['ನ', 'ಾ', 'ಳ'], ['ಫ', 'ಬ', 'ರ'], ['ಬ', 'ು', 'ಧ'], ['ವ', 'ರ', 'ಷ'], ['ವ', 'ಾ', 'ರ'], ['a', 'm'], ['p', 'm'], ['ಆ', 'ಗ'], ['ಈ', 'ಗ'], ['ಜ', 'ನ'], ['ದ', 'ನ'], ['ಮ', 'ೕ'], ['ಶ', 'ನ'], [' '], ['\''], ['+'], [','], ['-'], ['.'], ['/'], [':'], [';'], ['@'], ['['], [']'], ['z'], ['|']] }

/-- internal/data/ko.go: `ko_Locale`. -/
def koLang : LangData := { koDict with
  relativeRegexes :=
   [(.seqs [.grp 1 (.number), .lit ['개', '월', ' ', '전']], [.ref 1, .lit [' ', 'm', 'o', 'n', 't', 'h', ' ', 'a', 'g', 'o']]),
    (.seqs [.grp 1 (.number), .lit ['개', '월', ' ', '후']], [.lit ['i', 'n', ' '], .ref 1, .lit [' ', 'm', 'o', 'n', 't', 'h']]),
    (.seqs [.grp 1 (.number), .lit ['시', '간', ' ', '전']], [.ref 1, .lit [' ', 'h', 'o', 'u', 'r', ' ', 'a', 'g', 'o']]),
    (.seqs [.grp 1 (.number), .lit ['시', '간', ' ', '후']], [.lit ['i', 'n', ' '], .ref 1, .lit [' ', 'h', 'o', 'u', 'r']]),
    (.seqs [.grp 1 (.number), .lit ['년', ' ', '전']], [.ref 1, .lit [' ', 'y', 'e', 'a', 'r', ' ', 'a', 'g', 'o']]),
    (.seqs [.grp 1 (.number), .lit ['년', ' ', '후']], [.lit ['i', 'n', ' '], .ref 1, .lit [' ', 'y', 'e', 'a', 'r']]),
    (.seqs [.grp 1 (.number), .lit ['분', ' ', '전']], [.ref 1, .lit [' ', 'm', 'i', 'n', 'u', 't', 'e', ' ', 'a', 'g', 'o']]),
    (.seqs [.grp 1 (.number), .lit ['분', ' ', '후']], [.lit ['i', 'n', ' '], .ref 1, .lit [' ', 'm', 'i', 'n', 'u', 't', 'e']]),
    (.seqs [.grp 1 (.number), .lit ['일', ' ', '전']], [.ref 1, .lit [' ', 'd', 'a', 'y', ' ', 'a', 'g', 'o']]),
    (.seqs [.grp 1 (.number), .lit ['일', ' ', '후']], [.lit ['i', 'n', ' '], .ref 1, .lit [' ', 'd', 'a', 'y']]),
    (.seqs [.grp 1 (.number), .lit ['주', ' ', '전']], [.ref 1, .lit [' ', 'w', 'e', 'e', 'k', ' ', 'a', 'g', 'o']]),
    (.seqs [.grp 1 (.number), .lit ['주', ' ', '후']], [.lit ['i', 'n', ' '], .ref 1, .lit [' ', 'w', 'e', 'e', 'k']]),
    (.seqs [.grp 1 (.number), .lit ['초', ' ', '전']], [.ref 1, .lit [' ', 's', 'e', 'c', 'o', 'n', 'd', ' ', 'a', 'g', 'o']]),
    (.seqs [.grp 1 (.number), .lit ['초', ' ', '후']], [.lit ['i', 'n', ' '], .ref 1, .lit [' ', 's', 'e', 'c', 'o', 'n', 'd']])],
  rxCombined := some (.seqs [.grp 1 (.alts [.bos, .cls true [.letter, .mark, .digit], .lit ['_']]), .grp 2 (.alts [.seqs [.number, .lit ['개', '월', ' ', '전']], .seqs [.number, .lit ['개', '월', ' ', '후']], .seqs [.number, .lit ['시', '간', ' ', '전']], .seqs [.number, .lit ['시', '간', ' ', '후']], .seqs [.number, .lit ['년', ' ', '전']], .seqs [.number, .lit ['년', ' ', '후']], .seqs [.number, .lit ['분', ' ', '전']], .seqs [.number, .lit ['분', ' ', '후']], .seqs [.number, .lit ['일', ' ', '전']], .seqs [.number, .lit ['일', ' ', '후']], .seqs [.number, .lit ['주', ' ', '전']], .seqs [.number, .lit ['주', ' ', '후']], .seqs [.number, .lit ['초', ' ', '전']], .seqs [.number, .lit ['초', ' ', '후']]]), .grp 3 (.alts [.eos, .cls true [.letter, .mark, .digit], .lit ['_']])], 3),
  rxExact := some (.seqs [.bos, .grp 1 (.alts [.seqs [.number, .lit ['개', '월', ' ', '전']], .seqs [.number, .lit ['개', '월', ' ', '후']], .seqs [.number, .lit ['시', '간', ' ', '전']], .seqs [.number, .lit ['시', '간', ' ', '후']], .seqs [.number, .lit ['년', ' ', '전']], .seqs [.number, .lit ['년', ' ', '후']], .seqs [.number, .lit ['분', ' ', '전']], .seqs [.number, .lit ['분', ' ', '후']], .seqs [.number, .lit ['일', ' ', '전']], .seqs [.number, .lit ['일', ' ', '후']], .seqs [.number, .lit ['주', ' ', '전']], .seqs [.number, .lit ['주', ' ', '후']], .seqs [.number, .lit ['초', ' ', '전']], .seqs [.number, .lit ['초', ' ', '후']]]), .eos]),
  knownWords :=
   [['현', '재', ' ', '시', '간'], ['다', '음', ' ', '달'], ['다', '음', ' ', '주'], ['이', '번', ' ', '달'], ['이', '번', ' ', '주'], ['현', '재', ' ', '분'], ['1', '0', '월'], ['1', '1', '월'], ['1', '2', '월'], ['g', 'm', 't'], ['u', 't', 'c'], ['금', '요', '일'], ['목', '요', '일'], ['수', '요', '일'], ['월', '요', '일'], ['일', '요', '일'], ['지', '난', '달'], ['지', '난', '주'], ['토', '요', '일'], ['화', '요', '일'], ['1', '월'], ['2', '월'], ['3', '월'], ['4', '월'], ['5', '월'], ['6', '월'], ['7', '월'], ['8', '월'], ['9', '월'], ['a', 'm'], ['p', 'm'], ['내', '년'], ['내', '일'], ['어', '제'], ['오', '늘'], ['오', '전'], ['오', '후'], ['올', '해'], ['작', '년'], ['지', '금'], [' '], ['\''], ['+'], [','], ['-'], ['.'], ['/'], [':'], [';'], ['@'], ['['], [']'], ['z'], ['|'], ['금'], ['년'], ['목'], ['분'], ['수'], ['시'], ['월'], ['일'], ['주'], ['초'], ['토'], ['화']] }

/-- internal/data/ko.go: `ko_KP_Locale`. -/
def ko_KPLang : LangData := ko_KPDict

/-- internal/data/kok.go: `kok_Locale`. -/
def kokLang : LangData := { kokDict with
  knownWords :=
   [['t', 'h', 'i', 's', ' ', 'm', 'i', 'n', 'u', 't', 'e'], ['l', 'a', 's', 't', ' ', 'm', 'o', 'n', 't', 'h'], ['n', 'e', 'x', 't', ' ', 'm', 'o', 'n', 't', 'h'], ['t', 'h', 'i', 's', ' ', 'm', 'o', 'n', 't', 'h'], ['l', 'a', 's', 't', ' ', 'w', 'e', 'e', 'k'], ['l', 'a', 's', 't', ' ', 'y', 'e', 'a', 'r'], ['n', 'e', 'x', 't', ' ', 'w', 'e', 'e', 'k'], ['n', 'e', 'x', 't', ' ', 'y', 'e', 'a', 'r'], ['t', 'h', 'i', 's', ' ', 'h', 'o', 'u', 'r'], ['t', 'h', 'i', 's', ' ', 'w', 'e', 'e', 'k'], ['t', 'h', 'i', 's', ' ', 'y', 'e', 'a', 'r'], ['y', 'e', 's', 't', 'e', 'r', 'd', 'a', 'y'], ['t', 'o', 'm', 'o', 'r', 'r', 'o', 'w'], ['आ', 'द', 'ि', 'त', 'य', 'व', 'ा', 'र'], ['ज', 'ा', 'न', 'व', 'ा', 'र', 'ी'], ['फ', 'ब', 'र', 'व', 'ा', 'र', 'ी'], ['m', 'i', 'n', 'u', 't', 'e'], ['s', 'e', 'c', 'o', 'n', 'd'], ['ओ', 'क', 'ट', 'ो', 'ब', 'र'], ['न', 'ो', 'व', 'ह', 'ब', 'र'], ['श', 'क', 'र', 'व', 'ा', 'र'], ['श', 'न', 'ि', 'व', 'ा', 'र'], ['स', 'ो', 'म', 'व', 'ा', 'र'], ['m', 'o', 'n', 't', 'h'], ['t', 'o', 'd', 'a', 'y'], ['ए', 'प', 'र', 'ि', 'ल'], ['ग', 'र', 'व', 'ा', 'र'], ['ड', 'ि', 'स', 'ब', 'र'], ['ब', 'ध', 'व', 'ा', 'र'], ['म', 'ग', 'ळ', 'ा', 'र'], ['स', 'प', 'ट', 'ब', 'र'], ['h', 'o', 'u', 'r'], ['w', 'e', 'e', 'k'], ['y', 'e', 'a', 'r'], ['ओ', 'ग', 'स', 'ट'], ['म', 'ा', 'र', 'च'], ['d', 'a', 'y'], ['g', 'm', 't'], ['n', 'o', 'w'], ['u', 't', 'c'], ['म', 'ग', 'ळ'], ['र', 'व', 'ि'], ['श', 'क', 'र'], ['श', 'न', 'ि'], ['स', 'ो', 'म'], ['a', 'm'], ['p', 'm'], ['ग', 'र'], ['ज', 'न'], ['ज', 'ल'], ['ब', 'ध'], ['म', 'न'], ['म', 'प'], [' '], ['\''], ['+'], [','], ['-'], ['.'], ['/'], [':'], [';'], ['@'], ['['], [']'], ['z'], ['|'], ['म']] }

/-- internal/data/ks.go: `ks_Locale`. -/
def ksLang : LangData := { ksDict with
  knownWords :=
   [['t', 'h', 'i', 's', ' ', 'm', 'i', 'n', 'u', 't', 'e'], ['l', 'a', 's', 't', ' ', 'm', 'o', 'n', 't', 'h'], ['n', 'e', 'x', 't', ' ', 'm', 'o', 'n', 't', 'h'], ['t', 'h', 'i', 's', ' ', 'm', 'o', 'n', 't', 'h'], ['l', 'a', 's', 't', ' ', 'w', 'e', 'e', 'k'], ['l', 'a', 's', 't', ' ', 'y', 'e', 'a', 'r'], ['n', 'e', 'x', 't', ' ', 'w', 'e', 'e', 'k'], ['n', 'e', 'x', 't', ' ', 'y', 'e', 'a', 'r'], ['t', 'h', 'i', 's', ' ', 'h', 'o', 'u', 'r'], ['t', 'h', 'i', 's', ' ', 'w', 'e', 'e', 'k'], ['t', 'h', 'i', 's', ' ', 'y', 'e', 'a', 'r'], ['ژ', 'ن', 'د', 'ر', 'ر', 'و', 'ا', 'ر'], ['ب', 'ر', 'ٮ', 'س', 'و', 'ا', 'ر'], ['ژ', 'ن', 'د', 'ر', 'و', 'ا', 'ر'], ['ا', 'ت', 'ھ', 'و', 'ا', 'ر'], ['ا', 'ک', 'ت', 'و', 'ب', 'ر'], ['ب', 'و', 'د', 'و', 'ا', 'ر'], ['ب', 'و', 'م', 'و', 'ا', 'ر'], ['ج', 'و', 'ل', 'ا', 'ی', 'ی'], ['ا', 'پ', 'ر', 'ی', 'ل'], ['ب', 'ٹ', 'و', 'ا', 'ر'], ['ج', 'ن', 'و', 'ر', 'ی'], ['د', 'س', 'م', 'ب', 'ر'], ['س', 'ت', 'م', 'ب', 'ر'], ['س', 'ٮ', 'ک', 'ن', 'ڑ'], ['ف', 'ر', 'و', 'ر', 'ی'], ['ن', 'و', 'م', 'ب', 'ر'], ['گ', 'ٲ', 'ن', 'ٹ', 'ہ'], ['ا', 'گ', 'س', 'ت'], ['ر', 'ا', 'ت', 'ھ'], ['ر', 'ٮ', 'ت', 'ھ'], ['م', 'ا', 'ر', 'چ'], ['پ', 'گ', 'ا', 'ہ'], ['ہ', 'ف', 'ت', 'ہ'], ['g', 'm', 't'], ['n', 'o', 'w'], ['u', 't', 'c'], ['ج', 'م', 'ہ'], ['ج', 'و', 'ن'], ['د', 'ۄ', 'ہ'], ['م', 'ن', 'ٹ'], ['و', 'ر', 'ی'], ['a', 'm'], ['p', 'm'], ['ا', 'ز'], ['م', 'ی'], [' '], ['\''], ['+'], [','], ['-'], ['.'], ['/'], [':'], [';'], ['@'], ['['], [']'], ['z'], ['|']] }

/-- internal/data/ksb.go: `ksb_Locale`. -/
def ksbLang : LangData := { ksbDict with
  knownWords :=
   [['t', 'h', 'i', 's', ' ', 'm', 'i', 'n', 'u', 't', 'e'], ['l', 'a', 's', 't', ' ', 'm', 'o', 'n', 't', 'h'], ['n', 'e', 'x', 't', ' ', 'm', 'o', 'n', 't', 'h'], ['t', 'h', 'i', 's', ' ', 'm', 'o', 'n', 't', 'h'], ['j', 'u', 'm', 'a', 'a', 'm', 'o', 's', 'i'], ['j', 'u', 'm', 'a', 'a', 't', 'a', 'n', 'o'], ['j', 'u', 'm', 'a', 'a', 't', 'a', 't', 'u'], ['l', 'a', 's', 't', ' ', 'w', 'e', 'e', 'k'], ['l', 'a', 's', 't', ' ', 'y', 'e', 'a', 'r'], ['n', 'e', 'x', 't', ' ', 'w', 'e', 'e', 'k'], ['n', 'e', 'x', 't', ' ', 'y', 'e', 'a', 'r'], ['t', 'h', 'i', 's', ' ', 'h', 'o', 'u', 'r'], ['t', 'h', 'i', 's', ' ', 'w', 'e', 'e', 'k'], ['t', 'h', 'i', 's', ' ', 'y', 'e', 'a', 'r'], ['a', 'l', 'h', 'a', 'm', 'i', 's', 'i'], ['f', 'e', 'b', 'l', 'u', 'a', 'l', 'i'], ['j', 'u', 'm', 'a', 'a', 'p', 'i', 'i'], ['n', 'y', 'i', 'a', 'g', 'h', 'u', 'o'], ['s', 'e', 'p', 't', 'e', 'm', 'b', 'a'], ['d', 'e', 's', 'e', 'm', 'b', 'a'], ['j', 'a', 'n', 'u', 'a', 'l', 'i'], ['j', 'u', 'm', 'a', 'a', 'n', 'e'], ['n', 'g', '\'', 'w', 'a', 'k', 'a'], ['n', 'o', 'v', 'e', 'm', 'b', 'a'], ['s', 'e', 'k', 'u', 'n', 'd', 'e'], ['a', 'g', 'o', 's', 't', 'i'], ['a', 'p', 'l', 'i', 'l', 'i'], ['d', 'a', 'k', 'i', 'k', 'a'], ['e', 'v', 'i', ' ', 'e', 'o'], ['i', 'j', 'u', 'm', 'a', 'a'], ['n', 'g', '\'', 'e', 'z', 'i'], ['o', 'k', 't', 'o', 'b', 'a'], ['j', 'u', 'l', 'a', 'i'], ['k', 'e', 'l', 'o', 'i'], ['m', 'a', 'c', 'h', 'i'], ['m', 'a', 'k', 'e', 'o'], ['g', 'h', 'u', 'o'], ['j', 'u', 'n', 'i'], ['n', 'i', 'k', 'i'], ['s', 'i', 'k', 'u'], ['a', 'g', 'o'], ['a', 'l', 'h'], ['a', 'p', 'r'], ['d', 'e', 's'], ['f', 'e', 'b'], ['g', 'm', 't'], ['i', 'j', 'u'], ['j', 'a', 'n'], ['j', 'm', 'n'], ['j', 'm', 'o'], ['j', 'p', 'i'], ['j', 't', 'n'], ['j', 't', 't'], ['j', 'u', 'l'], ['j', 'u', 'n'], ['m', 'a', 'c'], ['m', 'e', 'i'], ['n', 'o', 'v'], ['n', 'o', 'w'], ['o', 'k', 't'], ['s', 'a', 'a'], ['s', 'e', 'p'], ['u', 't', 'c'], ['a', 'm'], ['p', 'm'], [' '], ['\''], ['+'], [','], ['-'], ['.'], ['/'], [':'], [';'], ['@'], ['['], [']'], ['z'], ['|']] }

/-- internal/data/ksf.go: `ksf_Locale`. -/
def ksfLang : LangData := { ksfDict with
  knownWords :=
   [['ŋ', 'w', 'i', 'i', ' ', 'a', 'k', 'ǝ', ' ', 'n', 't', 'ɛ', 'k', ' ', 'd', 'i', ' ', 'b', 'ɔ', 'k'], ['ŋ', 'w', 'i', 'i', ' ', 'a', 'k', 'ǝ', ' ', 'n', 't', 'ɛ', 'k', ' ', 'd', 'i', ' ', 'b', 'ɛ', 'ɛ'], ['ŋ', 'w', 'i', 'i', ' ', 'a', 'k', 'ǝ', ' ', 't', 'a', 'a', 'b', 'ɛ', 'ɛ'], ['ŋ', 'w', 'i', 'i', ' ', 'a', 'k', 'ǝ', ' ', 't', 'a', 'a', 'f', 'ɔ', 'k'], ['ŋ', 'w', 'i', 'i', ' ', 'a', 'k', 'ǝ', ' ', 't', 'a', 'a', 'n', 'i', 'n'], ['ŋ', 'w', 'i', 'i', ' ', 'a', 'k', 'ǝ', ' ', 't', 'a', 'a', 'r', 'a', 'a'], ['ŋ', 'w', 'i', 'i', ' ', 'a', ' ', 'n', 't', 'ɔ', 'n', 't', 'ɔ'], ['ŋ', 'w', 'i', 'i', ' ', 'a', 'k', 'ǝ', ' ', 'n', 't', 'ɛ', 'k'], ['ŋ', 'w', 'i', 'i', ' ', 'a', 'k', 'ǝ', ' ', 't', 'a', 'a', 'n'], ['ŋ', 'w', 'i', 'i', ' ', 'a', 'k', 'ǝ', ' ', 'b', 'ɛ', 'ɛ'], ['ŋ', 'w', 'i', 'i', ' ', 'a', 'k', 'ǝ', ' ', 'n', 'i', 'n'], ['ŋ', 'w', 'i', 'i', ' ', 'a', 'k', 'ǝ', ' ', 'r', 'a', 'a'], ['t', 'h', 'i', 's', ' ', 'm', 'i', 'n', 'u', 't', 'e'], ['l', 'a', 's', 't', ' ', 'm', 'o', 'n', 't', 'h'], ['n', 'e', 'x', 't', ' ', 'm', 'o', 'n', 't', 'h'], ['t', 'h', 'i', 's', ' ', 'm', 'o', 'n', 't', 'h'], ['l', 'a', 's', 't', ' ', 'w', 'e', 'e', 'k'], ['l', 'a', 's', 't', ' ', 'y', 'e', 'a', 'r'], ['n', 'e', 'x', 't', ' ', 'w', 'e', 'e', 'k'], ['n', 'e', 'x', 't', ' ', 'y', 'e', 'a', 'r'], ['t', 'h', 'i', 's', ' ', 'h', 'o', 'u', 'r'], ['t', 'h', 'i', 's', ' ', 'w', 'e', 'e', 'k'], ['t', 'h', 'i', 's', ' ', 'y', 'e', 'a', 'r'], ['m', 'ɛ', 'k', 'r', 'ɛ', 'd', 'i'], ['c', 'a', 'm', 'ɛ', 'ɛ', 'n'], ['c', 'ɛ', 'ɛ', 'n', 'k', 'o'], ['r', 'i', 'd', 'u', 'r', 'ǝ'], ['r', 'i', 'n', 'k', 'ɔ', 'ɔ'], ['s', 'a', 'r', 'u', 'w', 'a'], ['g', 'ɛ', 'ɛ', 'n', 'ǝ'], ['j', 'u', 'm', 'b', 'a'], ['j', 'ǝ', 'ǝ', 'd', 'i'], ['l', 'ǝ', 'n', 'd', 'i'], ['m', 'a', 'a', 'd', 'i'], ['m', 'ǝ', 'n', 'i', 't'], ['s', 'a', 'm', 'd', 'i'], ['s', 'ɔ', 'n', 'd', 'ǝ'], ['ŋ', 'w', 'i', 'i'], ['ŋ', 'w', 'o', 's'], ['b', 'ǝ', 'k'], ['g', 'm', 't'], ['h', 'a', 'u'], ['j', 'u', 'm'], ['j', 'ǝ', 'ǝ'], ['l', 'ǝ', 'n'], ['m', 'a', 'a'], ['m', 'ɛ', 'k'], ['n', 'o', 'w'], ['s', 'a', 'm'], ['s', 'ɔ', 'n'], ['u', 't', 'c'], ['ŋ', '1', '0'], ['ŋ', '1', '1'], ['ŋ', '1', '2'], ['a', 'm'], ['p', 'm'], ['ŋ', '1'], ['ŋ', '2'], ['ŋ', '3'], ['ŋ', '4'], ['ŋ', '5'], ['ŋ', '6'], ['ŋ', '7'], ['ŋ', '8'], ['ŋ', '9'], [' '], ['\''], ['+'], [','], ['-'], ['.'], ['/'], [':'], [';'], ['@'], ['['], [']'], ['z'], ['|']] }

/-- internal/data/ksh.go: `ksh_Locale`. -/
def kshLang : LangData := { kshDict with
  relativeRegexes :=
   [(.seqs [.lit ['v', 'o', 'r', ' '], .grp 1 (.number), .lit [' ', 'j', 'o', 'h', 'r', 'e']], [.ref 1, .lit [' ', 'y', 'e', 'a', 'r', ' ', 'a', 'g', 'o']]),
    (.seqs [.lit ['e', 'n', ' '], .grp 1 (.number), .lit [' ', 'j', 'o', 'h', 'r', 'e']], [.lit ['i', 'n', ' '], .ref 1, .lit [' ', 'y', 'e', 'a', 'r']]),
    (.seqs [.lit ['v', 'o', 'r', ' '], .grp 1 (.number), .lit [' ', 'j', 'o', 'h', 'r']], [.ref 1, .lit [' ', 'y', 'e', 'a', 'r', ' ', 'a', 'g', 'o']]),
    (.seqs [.lit ['e', 'n', ' '], .grp 1 (.number), .lit [' ', 'j', 'o', 'h', 'r']], [.lit ['i', 'n', ' '], .ref 1, .lit [' ', 'y', 'e', 'a', 'r']])],
  rxCombined := some (.seqs [.grp 1 (.alts [.bos, .cls true [.letter, .mark, .digit], .lit ['_']]), .grp 2 (.alts [.seqs [.lit ['v', 'o', 'r', ' '], .number, .lit [' ', 'j', 'o', 'h', 'r', 'e']], .seqs [.lit ['e', 'n', ' '], .number, .lit [' ', 'j', 'o', 'h', 'r', 'e']], .seqs [.lit ['v', 'o', 'r', ' '], .number, .lit [' ', 'j', 'o', 'h', 'r']], .seqs [.lit ['e', 'n', ' '], .number, .lit [' ', 'j', 'o', 'h', 'r']]]), .grp 3 (.alts [.eos, .cls true [.letter, .mark, .digit], .lit ['_']])], 3),
  rxExact := some (.seqs [.bos, .grp 1 (.alts [.seqs [.lit ['v', 'o', 'r', ' '], .number, .lit [' ', 'j', 'o', 'h', 'r', 'e']], .seqs [.lit ['e', 'n', ' '], .number, .lit [' ', 'j', 'o', 'h', 'r', 'e']], .seqs [.lit ['v', 'o', 'r', ' '], .number, .lit [' ', 'j', 'o', 'h', 'r']], .seqs [.lit ['e', 'n', ' '], .number, .lit [' ', 'j', 'o', 'h', 'r']]]), .eos]),
  knownWords :=
   [['u', 'h', 'r', ' ', 'n', 'o', 'm', 'm', 'e', 'n', 'd', 'a', 'a', 'c', 'h', 's'], ['u', 'h', 'r', ' ', 'v', 'o', 'r', 'm', 'i', 'd', 'd', 'a', 'a', 'c', 'h', 's'], ['n', 'a', 'c', 'h', 's', 't', 'e', ' ', 'm', 'o', 'h', 'n', 'd'], ['n', 'a', 'c', 'h', 's', 't', 'e', ' ', 'w', 'o', 'c', 'h', 'e'], ['d', 'u', 'n', 'n', 'e', 'r', 's', 'd', 'a', 'a', 'c', 'h'], ['l', 'a', 't', 'z', 'd', 'e', ' ', 'm', 'o', 'h', 'n', 'd'], ['d', 'i', 'e', 's', 'e', ' ', 'm', 'o', 'h', 'n', 'd'], ['n', 'o', 'm', 'm', 'e', 'n', 'd', 'a', 'a', 'c', 'h'], ['t', 'h', 'i', 's', ' ', 'm', 'i', 'n', 'u', 't', 'e'], ['v', 'o', 'r', 'm', 'e', 'd', 'd', 'a', 'a', 'c', 'h'], ['d', 'i', 'n', 'n', 's', 'd', 'a', 'a', 'c', 'h'], ['f', 'r', 'i', 'i', 'd', 'a', 'a', 'c', 'h'], ['m', 'o', 'h', 'n', 'd', 'a', 'a', 'c', 'h'], ['s', 'a', 'm', 's', 'd', 'a', 'a', 'c', 'h'], ['s', 'e', 'p', 't', 'a', 'm', 'b', 'e', 'r'], ['s', 'u', 'n', 'n', 'd', 'a', 'a', 'c', 'h'], ['t', 'h', 'i', 's', ' ', 'h', 'o', 'u', 'r'], ['d', 'e', 'z', 'a', 'm', 'b', 'e', 'r'], ['d', 'i', 'ß', ' ', 'j', 'o', 'h', 'r'], ['l', 'a', 'z', ' ', 'j', 'o', 'h', 'r'], ['l', 'a', 'z', ' ', 'w', 'o', 'c', 'h'], ['n', 'a', 'x', ' ', 'j', 'o', 'h', 'r'], ['n', 'o', 'v', 'a', 'm', 'b', 'e', 'r'], ['o', 'k', 't', 'o', 'h', 'b', 'e', 'r'], ['d', 'i', ' ', 'w', 'o', 'c', 'h'], ['f', 'a', 'b', 'r', 'o', 'w', 'a'], ['j', 'a', 'n', 'n', 'e', 'w', 'a'], ['j', 'e', 's', 't', 'e', 'r', 'e'], ['m', 'e', 't', 'w', 'o', 'c', 'h'], ['s', 'c', 'h', 't', 'u', 'n', 'd'], ['a', 'p', 'r', 'e', 'l', 'l'], ['m', 'e', 'n', 'u', 't', 't'], ['s', 'e', 'k', 'o', 'n', 'd'], ['d', 'a', 'a', 'c', 'h'], ['j', 'u', 'u', 'l', 'i'], ['j', 'u', 'u', 'n', 'i'], ['m', 'o', 'h', 'n', 'd'], ['m', 'o', 'r', 'j', 'e'], ['o', 'u', 'j', 'o', 'ß'], ['h', 'u', 'c', 'k'], ['j', 'o', 'h', 'r'], ['m', 'a', 'a', 'z'], ['w', 'o', 'c', 'h'], ['a', 'p', 'r'], ['d', 'e', 'z'], ['f', 'a', 'b'], ['g', 'm', 't'], ['j', 'a', 'n'], ['j', 'u', 'l'], ['j', 'u', 'n'], ['m', 'a', 'i'], ['m', 'a', 'z'], ['m', 'i', 'n'], ['n', 'o', 'v'], ['n', 'o', 'w'], ['o', 'k', 't'], ['o', 'u', 'j'], ['s', 'a', 'p'], ['s', 'e', 'k'], ['s', 't', 'd'], ['u', 't', 'c'], ['a', 'm'], ['d', 'i'], ['d', 'u'], ['f', 'r'], ['m', 'e'], ['m', 'o'], ['n', 'm'], ['p', 'm'], ['s', 'a'], ['s', 'u'], ['v', 'm'], [' '], ['\''], ['+'], [','], ['-'], ['.'], ['/'], [':'], [';'], ['@'], ['['], [']'], ['d'], ['j'], ['m'], ['s'], ['w'], ['z'], ['|']] }

/-- internal/data/kw.go: `kw_Locale`. -/
def kwLang : LangData := { kwDict with
  knownWords :=
   [['m', 'i', 's', ' ', 'g', 'o', 'r', 't', 'h', 'e', 'r', 'e', 'n'], ['m', 'i', 's', ' ', 'g', 'w', 'y', 'n', 'n', 'g', 'a', 'l', 'a'], ['m', 'i', 's', ' ', 'k', 'e', 'v', 'a', 'r', 'd', 'h', 'u'], ['m', 'i', 's', ' ', 'm', 'e', 't', 'h', 'e', 'v', 'e', 'n'], ['m', 'i', 's', ' ', 'h', 'w', 'e', 'v', 'r', 'e', 'r'], ['t', 'h', 'i', 's', ' ', 'm', 'i', 'n', 'u', 't', 'e'], ['l', 'a', 's', 't', ' ', 'm', 'o', 'n', 't', 'h'], ['m', 'i', 's', ' ', 'g', 'e', 'n', 'v', 'e', 'r'], ['m', 'i', 's', ' ', 'm', 'e', 'u', 'r', 't', 'h'], ['n', 'e', 'x', 't', ' ', 'm', 'o', 'n', 't', 'h'], ['t', 'h', 'i', 's', ' ', 'm', 'o', 'n', 't', 'h'], ['d', 'y', ' ', 'g', 'w', 'e', 'n', 'e', 'r'], ['d', 'y', ' ', 'm', 'e', 'r', 'h', 'e', 'r'], ['d', 'y', ' ', 'm', 'e', 'u', 'r', 't', 'h'], ['d', 'y', ' ', 's', 'a', 'd', 'o', 'r', 'n'], ['l', 'a', 's', 't', ' ', 'w', 'e', 'e', 'k'], ['l', 'a', 's', 't', ' ', 'y', 'e', 'a', 'r'], ['m', 'i', 's', ' ', 'e', 'b', 'r', 'e', 'l'], ['m', 'i', 's', ' ', 'h', 'e', 'd', 'r', 'a'], ['n', 'e', 'x', 't', ' ', 'w', 'e', 'e', 'k'], ['n', 'e', 'x', 't', ' ', 'y', 'e', 'a', 'r'], ['t', 'h', 'i', 's', ' ', 'h', 'o', 'u', 'r'], ['t', 'h', 'i', 's', ' ', 'w', 'e', 'e', 'k'], ['t', 'h', 'i', 's', ' ', 'y', 'e', 'a', 'r'], ['y', 'e', 's', 't', 'e', 'r', 'd', 'a', 'y'], ['t', 'o', 'm', 'o', 'r', 'r', 'o', 'w'], ['m', 'i', 's', ' ', 'e', 's', 't'], ['d', 'y', ' ', 'l', 'u', 'n'], ['d', 'y', ' ', 's', 'u', 'l'], ['d', 'y', ' ', 'y', 'o', 'w'], ['m', 'i', 'n', 'u', 't', 'e'], ['m', 'i', 's', ' ', 'd', 'u'], ['m', 'i', 's', ' ', 'm', 'e'], ['s', 'e', 'c', 'o', 'n', 'd'], ['m', 'o', 'n', 't', 'h'], ['t', 'o', 'd', 'a', 'y'], ['h', 'o', 'u', 'r'], ['w', 'e', 'e', 'k'], ['y', 'e', 'a', 'r'], ['d', 'a', 'y'], ['e', 'b', 'r'], ['e', 's', 't'], ['g', 'e', 'n'], ['g', 'm', 't'], ['g', 'o', 'r'], ['g', 'w', 'e'], ['g', 'w', 'n'], ['h', 'e', 'd'], ['h', 'w', 'e'], ['k', 'e', 'v'], ['l', 'u', 'n'], ['m', 'e', 't'], ['m', 'e', 'u'], ['m', 'h', 'r'], ['m', 't', 'h'], ['n', 'o', 'w'], ['s', 'a', 'd'], ['s', 'u', 'l'], ['u', 't', 'c'], ['y', 'o', 'w'], ['a', 'm'], ['d', 'u'], ['m', 'e'], ['p', 'm'], [' '], ['\''], ['+'], [','], ['-'], ['.'], ['/'], [':'], [';'], ['@'], ['['], [']'], ['z'], ['|']] }

/-- internal/data/ky.go: `ky_Locale`. -/
def kyLang : LangData := { kyDict with
  relativeRegexes :=
   [(.seqs [.grp 1 (.number), .lit [' '], .cls false [.rng 'С' 'С', .rng 'с' 'с', .rng 'ᲃ' 'ᲃ'], .cls false [.rng 'Е' 'Е', .rng 'е' 'е'], .cls false [.rng 'К' 'К', .rng 'к' 'к'], .cls false [.rng 'У' 'У', .rng 'у' 'у'], .cls false [.rng 'Н' 'Н', .rng 'н' 'н'], .cls false [.rng 'Д' 'Д', .rng 'д' 'д', .rng 'ᲁ' 'ᲁ'], .cls false [.rng 'Д' 'Д', .rng 'д' 'д', .rng 'ᲁ' 'ᲁ'], .cls false [.rng 'А' 'А', .rng 'а' 'а'], .cls false [.rng 'Н' 'Н', .rng 'н' 'н'], .lit [' '], .cls false [.rng 'К' 'К', .rng 'к' 'к'], .cls false [.rng 'И' 'И', .rng 'и' 'и'], .cls false [.rng 'И' 'И', .rng 'и' 'и'], .cls false [.rng 'И' 'И', .rng 'и' 'и'], .cls false [.rng 'Н' 'Н', .rng 'н' 'н']], [.lit ['i', 'n', ' '], .ref 1, .lit [' ', 's', 'e', 'c', 'o', 'n', 'd']]),
    (.seqs [.grp 1 (.number), .lit [' '], .cls false [.rng 'М' 'М', .rng 'м' 'м'], .cls false [.rng 'Ү' 'Ү', .rng 'ү' 'ү'], .cls false [.rng 'Н' 'Н', .rng 'н' 'н'], .cls false [.rng 'Ө' 'Ө', .rng 'ө' 'ө'], .cls false [.rng 'Т' 'Т', .rng 'т' 'т', .rng 'ᲄ' 'ᲄ', .rng 'ᲅ' 'ᲅ'], .cls false [.rng 'Т' 'Т', .rng 'т' 'т', .rng 'ᲄ' 'ᲄ', .rng 'ᲅ' 'ᲅ'], .cls false [.rng 'Ө' 'Ө', .rng 'ө' 'ө'], .cls false [.rng 'Н' 'Н', .rng 'н' 'н'], .lit [' '], .cls false [.rng 'К' 'К', .rng 'к' 'к'], .cls false [.rng 'И' 'И', .rng 'и' 'и'], .cls false [.rng 'И' 'И', .rng 'и' 'и'], .cls false [.rng 'И' 'И', .rng 'и' 'и'], .cls false [.rng 'Н' 'Н', .rng 'н' 'н']], [.lit ['i', 'n', ' '], .ref 1, .lit [' ', 'm', 'i', 'n', 'u', 't', 'e']]),
    (.seqs [.grp 1 (.number), .lit [' '], .cls false [.rng 'А' 'А', .rng 'а' 'а'], .cls false [.rng 'П' 'П', .rng 'п' 'п'], .cls false [.rng 'Т' 'Т', .rng 'т' 'т', .rng 'ᲄ' 'ᲄ', .rng 'ᲅ' 'ᲅ'], .cls false [.rng 'А' 'А', .rng 'а' 'а'], .cls false [.rng 'Д' 'Д', .rng 'д' 'д', .rng 'ᲁ' 'ᲁ'], .cls false [.rng 'А' 'А', .rng 'а' 'а'], .cls false [.rng 'Н' 'Н', .rng 'н' 'н'], .lit [' '], .cls false [.rng 'К' 'К', .rng 'к' 'к'], .cls false [.rng 'И' 'И', .rng 'и' 'и'], .cls false [.rng 'И' 'И', .rng 'и' 'и'], .cls false [.rng 'И' 'И', .rng 'и' 'и'], .cls false [.rng 'Н' 'Н', .rng 'н' 'н']], [.lit ['i', 'n', ' '], .ref 1, .lit [' ', 'w', 'e', 'e', 'k']]),
    (.seqs [.grp 1 (.number), .lit [' '], .cls false [.rng 'С' 'С', .rng 'с' 'с', .rng 'ᲃ' 'ᲃ'], .cls false [.rng 'А' 'А', .rng 'а' 'а'], .cls false [.rng 'А' 'А', .rng 'а' 'а'], .cls false [.rng 'Т' 'Т', .rng 'т' 'т', .rng 'ᲄ' 'ᲄ', .rng 'ᲅ' 'ᲅ'], .cls false [.rng 'Т' 'Т', .rng 'т' 'т', .rng 'ᲄ' 'ᲄ', .rng 'ᲅ' 'ᲅ'], .cls false [.rng 'А' 'А', .rng 'а' 'а'], .cls false [.rng 'Н' 'Н', .rng 'н' 'н'], .lit [' '], .cls false [.rng 'К' 'К', .rng 'к' 'к'], .cls false [.rng 'И' 'И', .rng 'и' 'и'], .cls false [.rng 'И' 'И', .rng 'и' 'и'], .cls false [.rng 'И' 'И', .rng 'и' 'и'], .cls false [.rng 'Н' 'Н', .rng 'н' 'н']], [.lit ['i', 'n', ' '], .ref 1, .lit [' ', 'h', 'o', 'u', 'r']]),
    (.seqs [.grp 1 (.number), .lit [' '], .cls false [.rng 'Ж' 'Ж', .rng 'ж' 'ж'], .cls false [.rng 'Ы' 'Ы', .rng 'ы' 'ы'], .cls false [.rng 'Л' 'Л', .rng 'л' 'л'], .cls false [.rng 'Д' 'Д', .rng 'д' 'д', .rng 'ᲁ' 'ᲁ'], .cls false [.rng 'А' 'А', .rng 'а' 'а'], .cls false [.rng 'Н' 'Н', .rng 'н' 'н'], .lit [' '], .cls false [.rng 'К' 'К', .rng 'к' 'к'], .cls false [.rng 'И' 'И', .rng 'и' 'и'], .cls false [.rng 'И' 'И', .rng 'и' 'и'], .cls false [.rng 'И' 'И', .rng 'и' 'и'], .cls false [.rng 'Н' 'Н', .rng 'н' 'н']], [.lit ['i', 'n', ' '], .ref 1, .lit [' ', 'y', 'e', 'a', 'r']]),
    (.seqs [.grp 1 (.number), .lit [' '], .cls false [.rng 'К' 'К', .rng 'к' 'к'], .cls false [.rng 'Ү' 'Ү', .rng 'ү' 'ү'], .cls false [.rng 'Н' 'Н', .rng 'н' 'н'], .cls false [.rng 'Д' 'Д', .rng 'д' 'д', .rng 'ᲁ' 'ᲁ'], .cls false [.rng 'Ө' 'Ө', .rng 'ө' 'ө'], .cls false [.rng 'Н' 'Н', .rng 'н' 'н'], .lit [' '], .cls false [.rng 'К' 'К', .rng 'к' 'к'], .cls false [.rng 'И' 'И', .rng 'и' 'и'], .cls false [.rng 'И' 'И', .rng 'и' 'и'], .cls false [.rng 'И' 'И', .rng 'и' 'и'], .cls false [.rng 'Н' 'Н', .rng 'н' 'н']], [.lit ['i', 'n', ' '], .ref 1, .lit [' ', 'd', 'a', 'y']]),
    (.seqs [.grp 1 (.number), .lit [' '], .cls false [.rng 'С' 'С', .rng 'с' 'с', .rng 'ᲃ' 'ᲃ'], .cls false [.rng 'Е' 'Е', .rng 'е' 'е'], .cls false [.rng 'К' 'К', .rng 'к' 'к'], .cls false [.rng 'У' 'У', .rng 'у' 'у'], .cls false [.rng 'Н' 'Н', .rng 'н' 'н'], .cls false [.rng 'Д' 'Д', .rng 'д' 'д', .rng 'ᲁ' 'ᲁ'], .lit [' '], .cls false [.rng 'М' 'М', .rng 'м' 'м'], .cls false [.rng 'У' 'У', .rng 'у' 'у'], .cls false [.rng 'Р' 'Р', .rng 'р' 'р'], .cls false [.rng 'У' 'У', .rng 'у' 'у'], .cls false [.rng 'Н' 'Н', .rng 'н' 'н']], [.ref 1, .lit [' ', 's', 'e', 'c', 'o', 'n', 'd', ' ', 'a', 'g', 'o']]),
    (.seqs [.grp 1 (.number), .lit [' '], .cls false [.rng 'А' 'А', .rng 'а' 'а'], .cls false [.rng 'И' 'И', .rng 'и' 'и'], .cls false [.rng 'Д' 'Д', .rng 'д' 'д', .rng 'ᲁ' 'ᲁ'], .cls false [.rng 'А' 'А', .rng 'а' 'а'], .cls false [.rng 'Н' 'Н', .rng 'н' 'н'], .lit [' '], .cls false [.rng 'К' 'К', .rng 'к' 'к'], .cls false [.rng 'И' 'И', .rng 'и' 'и'], .cls false [.rng 'И' 'И', .rng 'и' 'и'], .cls false [.rng 'И' 'И', .rng 'и' 'и'], .cls false [.rng 'Н' 'Н', .rng 'н' 'н']], [.lit ['i', 'n', ' '], .ref 1, .lit [' ', 'm', 'o', 'n', 't', 'h']]),
    (.seqs [.grp 1 (.number), .lit [' '], .cls false [.rng 'М' 'М', .rng 'м' 'м'], .cls false [.rng 'Ү' 'Ү', .rng 'ү' 'ү'], .cls false [.rng 'Н' 'Н', .rng 'н' 'н'], .cls false [.rng 'Ө' 'Ө', .rng 'ө' 'ө'], .cls false [.rng 'Т' 'Т', .rng 'т' 'т', .rng 'ᲄ' 'ᲄ', .rng 'ᲅ' 'ᲅ'], .lit [' '], .cls false [.rng 'М' 'М', .rng 'м' 'м'], .cls false [.rng 'У' 'У', .rng 'у' 'у'], .cls false [.rng 'Р' 'Р', .rng 'р' 'р'], .cls false [.rng 'У' 'У', .rng 'у' 'у'], .cls false [.rng 'Н' 'Н', .rng 'н' 'н']], [.ref 1, .lit [' ', 'm', 'i', 'n', 'u', 't', 'e', ' ', 'a', 'g', 'o']]),
    (.seqs [.grp 1 (.number), .lit [' '], .cls false [.rng 'А' 'А', .rng 'а' 'а'], .cls false [.rng 'П' 'П', .rng 'п' 'п'], .cls false [.rng 'Т' 'Т', .rng 'т' 'т', .rng 'ᲄ' 'ᲄ', .rng 'ᲅ' 'ᲅ'], .cls false [.rng 'А' 'А', .rng 'а' 'а'], .lit [' '], .cls false [.rng 'М' 'М', .rng 'м' 'м'], .cls false [.rng 'У' 'У', .rng 'у' 'у'], .cls false [.rng 'Р' 'Р', .rng 'р' 'р'], .cls false [.rng 'У' 'У', .rng 'у' 'у'], .cls false [.rng 'Н' 'Н', .rng 'н' 'н']], [.ref 1, .lit [' ', 'w', 'e', 'e', 'k', ' ', 'a', 'g', 'o']]),
    (.seqs [.grp 1 (.number), .lit [' '], .cls false [.rng 'С' 'С', .rng 'с' 'с', .rng 'ᲃ' 'ᲃ'], .cls false [.rng 'А' 'А', .rng 'а' 'а'], .cls false [.rng 'А' 'А', .rng 'а' 'а'], .cls false [.rng 'Т' 'Т', .rng 'т' 'т', .rng 'ᲄ' 'ᲄ', .rng 'ᲅ' 'ᲅ'], .lit [' '], .cls false [.rng 'К' 'К', .rng 'к' 'к'], .cls false [.rng 'И' 'И', .rng 'и' 'и'], .cls false [.rng 'И' 'И', .rng 'и' 'и'], .cls false [.rng 'И' 'И', .rng 'и' 'и'], .cls false [.rng 'Н' 'Н', .rng 'н' 'н']], [.lit ['i', 'n', ' '], .ref 1, .lit [' ', 'h', 'o', 'u', 'r']]),
    (.seqs [.grp 1 (.number), .lit [' '], .cls false [.rng 'С' 'С', .rng 'с' 'с', .rng 'ᲃ' 'ᲃ'], .cls false [.rng 'А' 'А', .rng 'а' 'а'], .cls false [.rng 'А' 'А', .rng 'а' 'а'], .cls false [.rng 'Т' 'Т', .rng 'т' 'т', .rng 'ᲄ' 'ᲄ', .rng 'ᲅ' 'ᲅ'], .lit [' '], .cls false [.rng 'М' 'М', .rng 'м' 'м'], .cls false [.rng 'У' 'У', .rng 'у' 'у'], .cls false [.rng 'Р' 'Р', .rng 'р' 'р'], .cls false [.rng 'У' 'У', .rng 'у' 'у'], .cls false [.rng 'Н' 'Н', .rng 'н' 'н']], [.ref 1, .lit [' ', 'h', 'o', 'u', 'r', ' ', 'a', 'g', 'o']]),
    (.seqs [.grp 1 (.number), .lit [' '], .cls false [.rng 'А' 'А', .rng 'а' 'а'], .cls false [.rng 'И' 'И', .rng 'и' 'и'], .cls false [.rng 'Д' 'Д', .rng 'д' 'д', .rng 'ᲁ' 'ᲁ'], .lit [' '], .cls false [.rng 'К' 'К', .rng 'к' 'к'], .cls false [.rng 'И' 'И', .rng 'и' 'и'], .cls false [.rng 'И' 'И', .rng 'и' 'и'], .cls false [.rng 'И' 'И', .rng 'и' 'и'], .cls false [.rng 'Н' 'Н', .rng 'н' 'н']], [.lit ['i', 'n', ' '], .ref 1, .lit [' ', 'm', 'o', 'n', 't', 'h']]),
    (.seqs [.grp 1 (.number), .lit [' '], .cls false [.rng 'А' 'А', .rng 'а' 'а'], .cls false [.rng 'П' 'П', .rng 'п' 'п'], .cls false [.rng 'Т' 'Т', .rng 'т' 'т', .rng 'ᲄ' 'ᲄ', .rng 'ᲅ' 'ᲅ'], .lit [' '], .cls false [.rng 'К' 'К', .rng 'к' 'к'], .cls false [.rng 'И' 'И', .rng 'и' 'и'], .cls false [.rng 'И' 'И', .rng 'и' 'и'], .cls false [.rng 'И' 'И', .rng 'и' 'и'], .cls false [.rng 'Н' 'Н', .rng 'н' 'н']], [.lit ['i', 'n', ' '], .ref 1, .lit [' ', 'w', 'e', 'e', 'k']]),
    (.seqs [.grp 1 (.number), .lit [' '], .cls false [.rng 'А' 'А', .rng 'а' 'а'], .cls false [.rng 'П' 'П', .rng 'п' 'п'], .cls false [.rng 'Т' 'Т', .rng 'т' 'т', .rng 'ᲄ' 'ᲄ', .rng 'ᲅ' 'ᲅ'], .lit [' '], .cls false [.rng 'М' 'М', .rng 'м' 'м'], .cls false [.rng 'У' 'У', .rng 'у' 'у'], .cls false [.rng 'Р' 'Р', .rng 'р' 'р'], .cls false [.rng 'У' 'У', .rng 'у' 'у'], .cls false [.rng 'Н' 'Н', .rng 'н' 'н']], [.ref 1, .lit [' ', 'w', 'e', 'e', 'k', ' ', 'a', 'g', 'o']]),
    (.seqs [.grp 1 (.number), .lit [' '], .cls false [.rng 'Ж' 'Ж', .rng 'ж' 'ж'], .cls false [.rng 'Ы' 'Ы', .rng 'ы' 'ы'], .cls false [.rng 'Л' 'Л', .rng 'л' 'л'], .lit [' '], .cls false [.rng 'К' 'К', .rng 'к' 'к'], .cls false [.rng 'И' 'И', .rng 'и' 'и'], .cls false [.rng 'И' 'И', .rng 'и' 'и'], .cls false [.rng 'И' 'И', .rng 'и' 'и'], .cls false [.rng 'Н' 'Н', .rng 'н' 'н']], [.lit ['i', 'n', ' '], .ref 1, .lit [' ', 'y', 'e', 'a', 'r']]),
    (.seqs [.grp 1 (.number), .lit [' '], .cls false [.rng 'Ж' 'Ж', .rng 'ж' 'ж'], .cls false [.rng 'Ы' 'Ы', .rng 'ы' 'ы'], .cls false [.rng 'Л' 'Л', .rng 'л' 'л'], .lit [' '], .cls false [.rng 'М' 'М', .rng 'м' 'м'], .cls false [.rng 'У' 'У', .rng 'у' 'у'], .cls false [.rng 'Р' 'Р', .rng 'р' 'р'], .cls false [.rng 'У' 'У', .rng 'у' 'у'], .cls false [.rng 'Н' 'Н', .rng 'н' 'н']], [.ref 1, .lit [' ', 'y', 'e', 'a', 'r', ' ', 'a', 'g', 'o']]),
    (.seqs [.grp 1 (.number), .lit [' '], .cls false [.rng 'К' 'К', .rng 'к' 'к'], .cls false [.rng 'Ү' 'Ү', .rng 'ү' 'ү'], .cls false [.rng 'Н' 'Н', .rng 'н' 'н'], .lit [' '], .cls false [.rng 'К' 'К', .rng 'к' 'к'], .cls false [.rng 'И' 'И', .rng 'и' 'и'], .cls false [.rng 'И' 'И', .rng 'и' 'и'], .cls false [.rng 'И' 'И', .rng 'и' 'и'], .cls false [.rng 'Н' 'Н', .rng 'н' 'н']], [.lit ['i', 'n', ' '], .ref 1, .lit [' ', 'd', 'a', 'y']]),
    (.seqs [.grp 1 (.number), .lit [' '], .cls false [.rng 'К' 'К', .rng 'к' 'к'], .cls false [.rng 'Ү' 'Ү', .rng 'ү' 'ү'], .cls false [.rng 'Н' 'Н', .rng 'н' 'н'], .lit [' '], .cls false [.rng 'М' 'М', .rng 'м' 'м'], .cls false [.rng 'У' 'У', .rng 'у' 'у'], .cls false [.rng 'Р' 'Р', .rng 'р' 'р'], .cls false [.rng 'У' 'У', .rng 'у' 'у'], .cls false [.rng 'Н' 'Н', .rng 'н' 'н']], [.ref 1, .lit [' ', 'd', 'a', 'y', ' ', 'a', 'g', 'o']]),
    (.seqs [.grp 1 (.number), .lit [' '], .cls false [.rng 'М' 'М', .rng 'м' 'м'], .cls false [.rng 'Ү' 'Ү', .rng 'ү' 'ү'], .cls false [.rng 'Н' 'Н', .rng 'н' 'н'], .lit [' '], .cls false [.rng 'К' 'К', .rng 'к' 'к'], .cls false [.rng 'И' 'И', .rng 'и' 'и'], .cls false [.rng 'И' 'И', .rng 'и' 'и'], .cls false [.rng 'И' 'И', .rng 'и' 'и'], .cls false [.rng 'Н' 'Н', .rng 'н' 'н']], [.lit ['i', 'n', ' '], .ref 1, .lit [' ', 'm', 'i', 'n', 'u', 't', 'e']]),
    (.seqs [.grp 1 (.number), .lit [' '], .cls false [.rng 'М' 'М', .rng 'м' 'м'], .cls false [.rng 'Ү' 'Ү', .rng 'ү' 'ү'], .cls false [.rng 'Н' 'Н', .rng 'н' 'н'], .lit [' '], .cls false [.rng 'М' 'М', .rng 'м' 'м'], .cls false [.rng 'У' 'У', .rng 'у' 'у'], .cls false [.rng 'Р' 'Р', .rng 'р' 'р'], .cls false [.rng 'У' 'У', .rng 'у' 'у'], .cls false [.rng 'Н' 'Н', .rng 'н' 'н']], [.ref 1, .lit [' ', 'm', 'i', 'n', 'u', 't', 'e', ' ', 'a', 'g', 'o']]),
    (.seqs [.grp 1 (.number), .lit [' '], .cls false [.rng 'С' 'С', .rng 'с' 'с', .rng 'ᲃ' 'ᲃ'], .cls false [.rng 'Е' 'Е', .rng 'е' 'е'], .cls false [.rng 'К' 'К', .rng 'к' 'к'], .lit [' '], .cls false [.rng 'К' 'К', .rng 'к' 'к'], .cls false [.rng 'И' 'И', .rng 'и' 'и'], .cls false [.rng 'И' 'И', .rng 'и' 'и'], .cls false [.rng 'И' 'И', .rng 'и' 'и'], .cls false [.rng 'Н' 'Н', .rng 'н' 'н']], [.lit ['i', 'n', ' '], .ref 1, .lit [' ', 's', 'e', 'c', 'o', 'n', 'd']]),
    (.seqs [.grp 1 (.number), .lit [' '], .cls false [.rng 'С' 'С', .rng 'с' 'с', .rng 'ᲃ' 'ᲃ'], .cls false [.rng 'Е' 'Е', .rng 'е' 'е'], .cls false [.rng 'К' 'К', .rng 'к' 'к'], .lit [' '], .cls false [.rng 'М' 'М', .rng 'м' 'м'], .cls false [.rng 'У' 'У', .rng 'у' 'у'], .cls false [.rng 'Р' 'Р', .rng 'р' 'р'], .cls false [.rng 'У' 'У', .rng 'у' 'у'], .cls false [.rng 'Н' 'Н', .rng 'н' 'н']], [.ref 1, .lit [' ', 's', 'e', 'c', 'o', 'n', 'd', ' ', 'a', 'g', 'o']]),
    (.seqs [.grp 1 (.number), .lit [' '], .cls false [.rng 'А' 'А', .rng 'а' 'а'], .cls false [.rng 'И' 'И', .rng 'и' 'и'], .lit [' '], .cls false [.rng 'М' 'М', .rng 'м' 'м'], .cls false [.rng 'У' 'У', .rng 'у' 'у'], .cls false [.rng 'Р' 'Р', .rng 'р' 'р'], .cls false [.rng 'У' 'У', .rng 'у' 'у'], .cls false [.rng 'Н' 'Н', .rng 'н' 'н']], [.ref 1, .lit [' ', 'm', 'o', 'n', 't', 'h', ' ', 'a', 'g', 'o']]),
    (.seqs [.grp 1 (.number), .lit [' '], .cls false [.rng 'А' 'А', .rng 'а' 'а'], .cls false [.rng 'И' 'И', .rng 'и' 'и'], .cls false [.rng 'Д' 'Д', .rng 'д' 'д', .rng 'ᲁ' 'ᲁ'], .lit [' '], .cls false [.rng 'К' 'К', .rng 'к' 'к'], .cls false [.rng 'И' 'И', .rng 'и' 'и'], .cls false [.rng 'И' 'И', .rng 'и' 'и'], .cls false [.rng 'Н' 'Н', .rng 'н' 'н']], [.lit ['i', 'n', ' '], .ref 1, .lit [' ', 'm', 'o', 'n', 't', 'h']]),
    (.seqs [.grp 1 (.number), .lit [' '], .cls false [.rng 'М' 'М', .rng 'м' 'м'], .cls false [.rng 'Ү' 'Ү', .rng 'ү' 'ү'], .cls false [.rng 'Н' 'Н', .rng 'н' 'н'], .lit [' '], .cls false [.rng 'К' 'К', .rng 'к' 'к'], .cls false [.rng 'И' 'И', .rng 'и' 'и'], .cls false [.rng 'И' 'И', .rng 'и' 'и'], .cls false [.rng 'Н' 'Н', .rng 'н' 'н']], [.lit ['i', 'n', ' '], .ref 1, .lit [' ', 'm', 'i', 'n', 'u', 't', 'e']]),
    (.seqs [.grp 1 (.number), .lit [' '], .cls false [.rng 'М' 'М', .rng 'м' 'м'], .cls false [.rng 'Ү' 'Ү', .rng 'ү' 'ү'], .cls false [.rng 'Н' 'Н', .rng 'н' 'н'], .lit [' '], .cls false [.rng 'М' 'М', .rng 'м' 'м'], .cls false [.rng 'У' 'У', .rng 'у' 'у'], .cls false [.rng 'Р' 'Р', .rng 'р' 'р'], .cls false [.rng 'Н' 'Н', .rng 'н' 'н']], [.ref 1, .lit [' ', 'm', 'i', 'n', 'u', 't', 'e', ' ', 'a', 'g', 'o']]),
    (.seqs [.grp 1 (.number), .lit [' '], .cls false [.rng 'С' 'С', .rng 'с' 'с', .rng 'ᲃ' 'ᲃ'], .cls false [.rng 'Е' 'Е', .rng 'е' 'е'], .cls false [.rng 'К' 'К', .rng 'к' 'к'], .lit [' '], .cls false [.rng 'К' 'К', .rng 'к' 'к'], .cls false [.rng 'И' 'И', .rng 'и' 'и'], .cls false [.rng 'И' 'И', .rng 'и' 'и'], .cls false [.rng 'Н' 'Н', .rng 'н' 'н']], [.lit ['i', 'n', ' '], .ref 1, .lit [' ', 's', 'e', 'c', 'o', 'n', 'd']]),
    (.seqs [.grp 1 (.number), .lit [' '], .cls false [.rng 'С' 'С', .rng 'с' 'с', .rng 'ᲃ' 'ᲃ'], .cls false [.rng 'Е' 'Е', .rng 'е' 'е'], .cls false [.rng 'К' 'К', .rng 'к' 'к'], .lit [' '], .cls false [.rng 'М' 'М', .rng 'м' 'м'], .cls false [.rng 'У' 'У', .rng 'у' 'у'], .cls false [.rng 'Р' 'Р', .rng 'р' 'р'], .cls false [.rng 'Н' 'Н', .rng 'н' 'н']], [.ref 1, .lit [' ', 's', 'e', 'c', 'o', 'n', 'd', ' ', 'a', 'g', 'o']]),
    (.seqs [.grp 1 (.number), .lit [' '], .cls false [.rng 'А' 'А', .rng 'а' 'а'], .cls false [.rng 'И' 'И', .rng 'и' 'и'], .lit [' '], .cls false [.rng 'М' 'М', .rng 'м' 'м'], .cls false [.rng 'У' 'У', .rng 'у' 'у'], .cls false [.rng 'Р' 'Р', .rng 'р' 'р'], .cls false [.rng 'Н' 'Н', .rng 'н' 'н']], [.ref 1, .lit [' ', 'm', 'o', 'n', 't', 'h', ' ', 'a', 'g', 'o']]),
    (.seqs [.grp 1 (.number), .lit [' '], .cls false [.rng 'С' 'С', .rng 'с' 'с', .rng 'ᲃ' 'ᲃ'], .lit [' '], .cls false [.rng 'К' 'К', .rng 'к' 'к'], .cls false [.rng 'И' 'И', .rng 'и' 'и'], .cls false [.rng 'И' 'И', .rng 'и' 'и'], .cls false [.rng 'Н' 'Н', .rng 'н' 'н']], [.lit ['i', 'n', ' '], .ref 1, .lit [' ', 'h', 'o', 'u', 'r']]),
    (.seqs [.grp 1 (.number), .lit [' '], .cls false [.rng 'С' 'С', .rng 'с' 'с', .rng 'ᲃ' 'ᲃ'], .lit [' '], .cls false [.rng 'М' 'М', .rng 'м' 'м'], .cls false [.rng 'У' 'У', .rng 'у' 'у'], .cls false [.rng 'Р' 'Р', .rng 'р' 'р'], .cls false [.rng 'Н' 'Н', .rng 'н' 'н']], [.ref 1, .lit [' ', 'h', 'o', 'u', 'r', ' ', 'a', 'g', 'o']])],
  rxCombined := some (.seqs [.grp 1 (.alts [.bos, .cls true [.letter, .mark, .digit], .lit ['_']]), .grp 2 (.alts [.seqs [.number, .lit [' '], .cls false [.rng 'С' 'С', .rng 'с' 'с', .rng 'ᲃ' 'ᲃ'], .cls false [.rng 'Е' 'Е', .rng 'е' 'е'], .cls false [.rng 'К' 'К', .rng 'к' 'к'], .cls false [.rng 'У' 'У', .rng 'у' 'у'], .cls false [.rng 'Н' 'Н', .rng 'н' 'н'], .cls false [.rng 'Д' 'Д', .rng 'д' 'д', .rng 'ᲁ' 'ᲁ'], .cls false [.rng 'Д' 'Д', .rng 'д' 'д', .rng 'ᲁ' 'ᲁ'], .cls false [.rng 'А' 'А', .rng 'а' 'а'], .cls false [.rng 'Н' 'Н', .rng 'н' 'н'], .lit [' '], .cls false [.rng 'К' 'К', .rng 'к' 'к'], .cls false [.rng 'И' 'И', .rng 'и' 'и'], .cls false [.rng 'И' 'И', .rng 'и' 'и'], .cls false [.rng 'И' 'И', .rng 'и' 'и'], .cls false [.rng 'Н' 'Н', .rng 'н' 'н']], .seqs [.number, .lit [' '], .cls false [.rng 'М' 'М', .rng 'м' 'м'], .cls false [.rng 'Ү' 'Ү', .rng 'ү' 'ү'], .cls false [.rng 'Н' 'Н', .rng 'н' 'н'], .cls false [.rng 'Ө' 'Ө', .rng 'ө' 'ө'], .cls false [.rng 'Т' 'Т', .rng 'т' 'т', .rng 'ᲄ' 'ᲄ', .rng 'ᲅ' 'ᲅ'], .cls false [.rng 'Т' 'Т', .rng 'т' 'т', .rng 'ᲄ' 'ᲄ', .rng 'ᲅ' 'ᲅ'], .cls false [.rng 'Ө' 'Ө', .rng 'ө' 'ө'], .cls false [.rng 'Н' 'Н', .rng 'н' 'н'], .lit [' '], .cls false [.rng 'К' 'К', .rng 'к' 'к'], .cls false [.rng 'И' 'И', .rng 'и' 'и'], .cls false [.rng 'И' 'И', .rng 'и' 'и'], .cls false [.rng 'И' 'И', .rng 'и' 'и'], .cls false [.rng 'Н' 'Н', .rng 'н' 'н']], .seqs [.number, .lit [' '], .cls false [.rng 'А' 'А', .rng 'а' 'а'], .cls false [.rng 'П' 'П', .rng 'п' 'п'], .cls false [.rng 'Т' 'Т', .rng 'т' 'т', .rng 'ᲄ' 'ᲄ', .rng 'ᲅ' 'ᲅ'], .cls false [.rng 'А' 'А', .rng 'а' 'а'], .cls false [.rng 'Д' 'Д', .rng 'д' 'д', .rng 'ᲁ' 'ᲁ'], .cls false [.rng 'А' 'А', .rng 'а' 'а'], .cls false [.rng 'Н' 'Н', .rng 'н' 'н'], .lit [' '], .cls false [.rng 'К' 'К', .rng 'к' 'к'], .cls false [.rng 'И' 'И', .rng 'и' 'и'], .cls false [.rng 'И' 'И', .rng 'и' 'и'], .cls false [.rng 'И' 'И', .rng 'и' 'и'], .cls false [.rng 'Н' 'Н', .rng 'н' 'н']], .seqs [.number, .lit [' '], .cls false [.rng 'С' 'С', .rng 'с' 'с', .rng 'ᲃ' 'ᲃ'], .cls false [.rng 'А' 'А', .rng 'а' 'а'], .cls false [.rng 'А' 'А', .rng 'а' 'а'], .cls false [.rng 'Т' 'Т', .rng 'т' 'т', .rng 'ᲄ' 'ᲄ', .rng 'ᲅ' 'ᲅ'], .cls false [.rng 'Т' 'Т', .rng 'т' 'т', .rng 'ᲄ' 'ᲄ', .rng 'ᲅ' 'ᲅ'], .cls false [.rng 'А' 'А', .rng 'а' 'а'], .cls false [.rng 'Н' 'Н', .rng 'н' 'н'], .lit [' '], .cls false [.rng 'К' 'К', .rng 'к' 'к'], .cls false [.rng 'И' 'И', .rng 'и' 'и'], .cls false [.rng 'И' 'И', .rng 'и' 'и'], .cls false [.rng 'И' 'И', .rng 'и' 'и'], .cls false [.rng 'Н' 'Н', .rng 'н' 'н']], .seqs [.number, .lit [' '], .cls false [.rng 'Ж' 'Ж', .rng 'ж' 'ж'], .cls false [.rng 'Ы' 'Ы', .rng 'ы' 'ы'], .cls false [.rng 'Л' 'Л', .rng 'л' 'л'], .cls false [.rng 'Д' 'Д', .rng 'д' 'д', .rng 'ᲁ' 'ᲁ'], .cls false [.rng 'А' 'А', .rng 'а' 'а'], .cls false [.rng 'Н' 'Н', .rng 'н' 'н'], .lit [' '], .cls false [.rng 'К' 'К', .rng 'к' 'к'], .cls false [.rng 'И' 'И', .rng 'и' 'и'], .cls false [.rng 'И' 'И', .rng 'и' 'и'], .cls false [.rng 'И' 'И', .rng 'и' 'и'], .cls false [.rng 'Н' 'Н', .rng 'н' 'н']], .seqs [.number, .lit [' '], .cls false [.rng 'К' 'К', .rng 'к' 'к'], .cls false [.rng 'Ү' 'Ү', .rng 'ү' 'ү'], .cls false [.rng 'Н' 'Н', .rng 'н' 'н'], .cls false [.rng 'Д' 'Д', .rng 'д' 'д', .rng 'ᲁ' 'ᲁ'], .cls false [.rng 'Ө' 'Ө', .rng 'ө' 'ө'], .cls false [.rng 'Н' 'Н', .rng 'н' 'н'], .lit [' '], .cls false [.rng 'К' 'К', .rng 'к' 'к'], .cls false [.rng 'И' 'И', .rng 'и' 'и'], .cls false [.rng 'И' 'И', .rng 'и' 'и'], .cls false [.rng 'И' 'И', .rng 'и' 'и'], .cls false [.rng 'Н' 'Н', .rng 'н' 'н']], .seqs [.number, .lit [' '], .cls false [.rng 'С' 'С', .rng 'с' 'с', .rng 'ᲃ' 'ᲃ'], .cls false [.rng 'Е' 'Е', .rng 'е' 'е'], .cls false [.rng 'К' 'К', .rng 'к' 'к'], .cls false [.rng 'У' 'У', .rng 'у' 'у'], .cls false [.rng 'Н' 'Н', .rng 'н' 'н'], .cls false [.rng 'Д' 'Д', .rng 'д' 'д', .rng 'ᲁ' 'ᲁ'], .lit [' '], .cls false [.rng 'М' 'М', .rng 'м' 'м'], .cls false [.rng 'У' 'У', .rng 'у' 'у'], .cls false [.rng 'Р' 'Р', .rng 'р' 'р'], .cls false [.rng 'У' 'У', .rng 'у' 'у'], .cls false [.rng 'Н' 'Н', .rng 'н' 'н']], .seqs [.number, .lit [' '], .cls false [.rng 'А' 'А', .rng 'а' 'а'], .cls false [.rng 'И' 'И', .rng 'и' 'и'], .cls false [.rng 'Д' 'Д', .rng 'д' 'д', .rng 'ᲁ' 'ᲁ'], .cls false [.rng 'А' 'А', .rng 'а' 'а'], .cls false [.rng 'Н' 'Н', .rng 'н' 'н'], .lit [' '], .cls false [.rng 'К' 'К', .rng 'к' 'к'], .cls false [.rng 'И' 'И', .rng 'и' 'и'], .cls false [.rng 'И' 'И', .rng 'и' 'и'], .cls false [.rng 'И' 'И', .rng 'и' 'и'], .cls false [.rng 'Н' 'Н', .rng 'н' 'н']], .seqs [.number, .lit [' '], .cls false [.rng 'М' 'М', .rng 'м' 'м'], .cls false [.rng 'Ү' 'Ү', .rng 'ү' 'ү'], .cls false [.rng 'Н' 'Н', .rng 'н' 'н'], .cls false [.rng 'Ө' 'Ө', .rng 'ө' 'ө'], .cls false [.rng 'Т' 'Т', .rng 'т' 'т', .rng 'ᲄ' 'ᲄ', .rng 'ᲅ' 'ᲅ'], .lit [' '], .cls false [.rng 'М' 'М', .rng 'м' 'м'], .cls false [.rng 'У' 'У', .rng 'у' 'у'], .cls false [.rng 'Р' 'Р', .rng 'р' 'р'], .cls false [.rng 'У' 'У', .rng 'у' 'у'], .cls false [.rng 'Н' 'Н', .rng 'н' 'н']], .seqs [.number, .lit [' '], .cls false [.rng 'А' 'А', .rng 'а' 'а'], .cls false [.rng 'П' 'П', .rng 'п' 'п'], .cls false [.rng 'Т' 'Т', .rng 'т' 'т', .rng 'ᲄ' 'ᲄ', .rng 'ᲅ' 'ᲅ'], .cls false [.rng 'А' 'А', .rng 'а' 'а'], .lit [' '], .cls false [.rng 'М' 'М', .rng 'м' 'м'], .cls false [.rng 'У' 'У', .rng 'у' 'у'], .cls false [.rng 'Р' 'Р', .rng 'р' 'р'], .cls false [.rng 'У' 'У', .rng 'у' 'у'], .cls false [.rng 'Н' 'Н', .rng 'н' 'н']], .seqs [.number, .lit [' '], .cls false [.rng 'С' 'С', .rng 'с' 'с', .rng 'ᲃ' 'ᲃ'], .cls false [.rng 'А' 'А', .rng 'а' 'а'], .cls false [.rng 'А' 'А', .rng 'а' 'а'], .cls false [.rng 'Т' 'Т', .rng 'т' 'т', .rng 'ᲄ' 'ᲄ', .rng 'ᲅ' 'ᲅ'], .lit [' '], .cls false [.rng 'К' 'К', .rng 'к' 'к'], .cls false [.rng 'И' 'И', .rng 'и' 'и'], .cls false [.rng 'И' 'И', .rng 'и' 'и'], .cls false [.rng 'И' 'И', .rng 'и' 'и'], .cls false [.rng 'Н' 'Н', .rng 'н' 'н']], .seqs [.number, .lit [' '], .cls false [.rng 'С' 'С', .rng 'с' 'с', .rng 'ᲃ' 'ᲃ'], .cls false [.rng 'А' 'А', .rng 'а' 'а'], .cls false [.rng 'А' 'А', .rng 'а' 'а'], .cls false [.rng 'Т' 'Т', .rng 'т' 'т', .rng 'ᲄ' 'ᲄ', .rng 'ᲅ' 'ᲅ'], .lit [' '], .cls false [.rng 'М' 'М', .rng 'м' 'м'], .cls false [.rng 'У' 'У', .rng 'у' 'у'], .cls false [.rng 'Р' 'Р', .rng 'р' 'р'], .cls false [.rng 'У' 'У', .rng 'у' 'у'], .cls false [.rng 'Н' 'Н', .rng 'н' 'н']], .seqs [.number, .lit [' '], .cls false [.rng 'А' 'А', .rng 'а' 'а'], .cls false [.rng 'И' 'И', .rng 'и' 'и'], .cls false [.rng 'Д' 'Д', .rng 'д' 'д', .rng 'ᲁ' 'ᲁ'], .lit [' '], .cls false [.rng 'К' 'К', .rng 'к' 'к'], .cls false [.rng 'И' 'И', .rng 'и' 'и'], .cls false [.rng 'И' 'И', .rng 'и' 'и'], .cls false [.rng 'И' 'И', .rng 'и' 'и'], .cls false [.rng 'Н' 'Н', .rng 'н' 'н']], .seqs [.number, .lit [' '], .cls false [.rng 'А' 'А', .rng 'а' 'а'], .cls false [.rng 'П' 'П', .rng 'п' 'п'], .cls false [.rng 'Т' 'Т', .rng 'т' 'т', .rng 'ᲄ' 'ᲄ', .rng 'ᲅ' 'ᲅ'], .lit [' '], .cls false [.rng 'К' 'К', .rng 'к' 'к'], .cls false [.rng 'И' 'И', .rng 'и' 'и'], .cls false [.rng 'И' 'И', .rng 'и' 'и'], .cls false [.rng 'И' 'И', .rng 'и' 'и'], .cls false [.rng 'Н' 'Н', .rng 'н' 'н']], .seqs [.number, .lit [' '], .cls false [.rng 'А' 'А', .rng 'а' 'а'], .cls false [.rng 'П' 'П', .rng 'п' 'п'], .cls false [.rng 'Т' 'Т', .rng 'т' 'т', .rng 'ᲄ' 'ᲄ', .rng 'ᲅ' 'ᲅ'], .lit [' '], .cls false [.rng 'М' 'М', .rng 'м' 'м'], .cls false [.rng 'У' 'У', .rng 'у' 'у'], .cls false [.rng 'Р' 'Р', .rng 'р' 'р'], .cls false [.rng 'У' 'У', .rng 'у' 'у'], .cls false [.rng 'Н' 'Н', .rng 'н' 'н']], .seqs [.number, .lit [' '], .cls false [.rng 'Ж' 'Ж', .rng 'ж' 'ж'], .cls false [.rng 'Ы' 'Ы', .rng 'ы' 'ы'], .cls false [.rng 'Л' 'Л', .rng 'л' 'л'], .lit [' '], .cls false [.rng 'К' 'К', .rng 'к' 'к'], .cls false [.rng 'И' 'И', .rng 'и' 'и'], .cls false [.rng 'И' 'И', .rng 'и' 'и'], .cls false [.rng 'И' 'И', .rng 'и' 'и'], .cls false [.rng 'Н' 'Н', .rng 'н' 'н']], .seqs [.number, .lit [' '], .cls false [.rng 'Ж' 'Ж', .rng 'ж' 'ж'], .cls false [.rng 'Ы' 'Ы', .rng 'ы' 'ы'], .cls false [.rng 'Л' 'Л', .rng 'л' 'л'], .lit [' '], .cls false [.rng 'М' 'М', .rng 'м' 'м'], .cls false [.rng 'У' 'У', .rng 'у' 'у'], .cls false [.rng 'Р' 'Р', .rng 'р' 'р'], .cls false [.rng 'У' 'У', .rng 'у' 'у'], .cls false [.rng 'Н' 'Н', .rng 'н' 'н']], .seqs [.number, .lit [' '], .cls false [.rng 'К' 'К', .rng 'к' 'к'], .cls false [.rng 'Ү' 'Ү', .rng 'ү' 'ү'], .cls false [.rng 'Н' 'Н', .rng 'н' 'н'], .lit [' '], .cls false [.rng 'К' 'К', .rng 'к' 'к'], .cls false [.rng 'И' 'И', .rng 'и' 'и'], .cls false [.rng 'И' 'И', .rng 'и' 'и'], .cls false [.rng 'И' 'И', .rng 'и' 'и'], .cls false [.rng 'Н' 'Н', .rng 'н' 'н']], .seqs [.number, .lit [' '], .cls false [.rng 'К' 'К', .rng 'к' 'к'], .cls false [.rng 'Ү' 'Ү', .rng 'ү' 'ү'], .cls false [.rng 'Н' 'Н', .rng 'н' 'н'], .lit [' '], .cls false [.rng 'М' 'М', .rng 'м' 'м'], .cls false [.rng 'У' 'У', .rng 'у' 'у'], .cls false [.rng 'Р' 'Р', .rng 'р' 'р'], .cls false [.rng 'У' 'У', .rng 'у' 'у'], .cls false [.rng 'Н' 'Н', .rng 'н' 'н']], .seqs [.number, .lit [' '], .cls false [.rng 'М' 'М', .rng 'м' 'м'], .cls false [.rng 'Ү' 'Ү', .rng 'ү' 'ү'], .cls false [.rng 'Н' 'Н', .rng 'н' 'н'], .lit [' '], .cls false [.rng 'К' 'К', .rng 'к' 'к'], .cls false [.rng 'И' 'И', .rng 'и' 'и'], .cls false [.rng 'И' 'И', .rng 'и' 'и'], .cls false [.rng 'И' 'И', .rng 'и' 'и'], .cls false [.rng 'Н' 'Н', .rng 'н' 'н']], .seqs [.number, .lit [' '], .cls false [.rng 'М' 'М', .rng 'м' 'м'], .cls false [.rng 'Ү' 'Ү', .rng 'ү' 'ү'], .cls false [.rng 'Н' 'Н', .rng 'н' 'н'], .lit [' '], .cls false [.rng 'М' 'М', .rng 'м' 'м'], .cls false [.rng 'У' 'У', .rng 'у' 'у'], .cls false [.rng 'Р' 'Р', .rng 'р' 'р'], .cls false [.rng 'У' 'У', .rng 'у' 'у'], .cls false [.rng 'Н' 'Н', .rng 'н' 'н']], .seqs [.number, .lit [' '], .cls false [.rng 'С' 'С', .rng 'с' 'с', .rng 'ᲃ' 'ᲃ'], .cls false [.rng 'Е' 'Е', .rng 'е' 'е'], .cls false [.rng 'К' 'К', .rng 'к' 'к'], .lit [' '], .cls false [.rng 'К' 'К', .rng 'к' 'к'], .cls false [.rng 'И' 'И', .rng 'и' 'и'], .cls false [.rng 'И' 'И', .rng 'и' 'и'], .cls false [.rng 'И' 'И', .rng 'и' 'и'], .cls false [.rng 'Н' 'Н', .rng 'н' 'н']], .seqs [.number, .lit [' '], .cls false [.rng 'С' 'С', .rng 'с' 'с', .rng 'ᲃ' 'ᲃ'], .cls false [.rng 'Е' 'Е', .rng 'е' 'е'], .cls false [.rng 'К' 'К', .rng 'к' 'к'], .lit [' '], .cls false [.rng 'М' 'М', .rng 'м' 'м'], .cls false [.rng 'У' 'У', .rng 'у' 'у'], .cls false [.rng 'Р' 'Р', .rng 'р' 'р'], .cls false [.rng 'У' 'У', .rng 'у' 'у'], .cls false [.rng 'Н' 'Н', .rng 'н' 'н']], .seqs [.number, .lit [' '], .cls false [.rng 'А' 'А', .rng 'а' 'а'], .cls false [.rng 'И' 'И', .rng 'и' 'и'], .lit [' '], .cls false [.rng 'М' 'М', .rng 'м' 'м'], .cls false [.rng 'У' 'У', .rng 'у' 'у'], .cls false [.rng 'Р' 'Р', .rng 'р' 'р'], .cls false [.rng 'У' 'У', .rng 'у' 'у'], .cls false [.rng 'Н' 'Н', .rng 'н' 'н']], .seqs [.number, .lit [' '], .cls false [.rng 'А' 'А', .rng 'а' 'а'], .cls false [.rng 'И' 'И', .rng 'и' 'и'], .cls false [.rng 'Д' 'Д', .rng 'д' 'д', .rng 'ᲁ' 'ᲁ'], .lit [' '], .cls false [.rng 'К' 'К', .rng 'к' 'к'], .cls false [.rng 'И' 'И', .rng 'и' 'и'], .cls false [.rng 'И' 'И', .rng 'и' 'и'], .cls false [.rng 'Н' 'Н', .rng 'н' 'н']], .seqs [.number, .lit [' '], .cls false [.rng 'М' 'М', .rng 'м' 'м'], .cls false [.rng 'Ү' 'Ү', .rng 'ү' 'ү'], .cls false [.rng 'Н' 'Н', .rng 'н' 'н'], .lit [' '], .cls false [.rng 'К' 'К', .rng 'к' 'к'], .cls false [.rng 'И' 'И', .rng 'и' 'и'], .cls false [.rng 'И' 'И', .rng 'и' 'и'], .cls false [.rng 'Н' 'Н', .rng 'н' 'н']], .seqs [.number, .lit [' '], .cls false [.rng 'М' 'М', .rng 'м' 'м'], .cls false [.rng 'Ү' 'Ү', .rng 'ү' 'ү'], .cls false [.rng 'Н' 'Н', .rng 'н' 'н'], .lit [' '], .cls false [.rng 'М' 'М', .rng 'м' 'м'], .cls false [.rng 'У' 'У', .rng 'у' 'у'], .cls false [.rng 'Р' 'Р', .rng 'р' 'р'], .cls false [.rng 'Н' 'Н', .rng 'н' 'н']], .seqs [.number, .lit [' '], .cls false [.rng 'С' 'С', .rng 'с' 'с', .rng 'ᲃ' 'ᲃ'], .cls false [.rng 'Е' 'Е', .rng 'е' 'е'], .cls false [.rng 'К' 'К', .rng 'к' 'к'], .lit [' '], .cls false [.rng 'К' 'К', .rng 'к' 'к'], .cls false [.rng 'И' 'И', .rng 'и' 'и'], .cls false [.rng 'И' 'И', .rng 'и' 'и'], .cls false [.rng 'Н' 'Н', .rng 'н' 'н']], .seqs [.number, .lit [' '], .cls false [.rng 'С' 'С', .rng 'с' 'с', .rng 'ᲃ' 'ᲃ'], .cls false [.rng 'Е' 'Е', .rng 'е' 'е'], .cls false [.rng 'К' 'К', .rng 'к' 'к'], .lit [' '], .cls false [.rng 'М' 'М', .rng 'м' 'м'], .cls false [.rng 'У' 'У', .rng 'у' 'у'], .cls false [.rng 'Р' 'Р', .rng 'р' 'р'], .cls false [.rng 'Н' 'Н', .rng 'н' 'н']], .seqs [.number, .lit [' '], .cls false [.rng 'А' 'А', .rng 'а' 'а'], .cls false [.rng 'И' 'И', .rng 'и' 'и'], .lit [' '], .cls false [.rng 'М' 'М', .rng 'м' 'м'], .cls false [.rng 'У' 'У', .rng 'у' 'у'], .cls false [.rng 'Р' 'Р', .rng 'р' 'р'], .cls false [.rng 'Н' 'Н', .rng 'н' 'н']], .seqs [.number, .lit [' '], .cls false [.rng 'С' 'С', .rng 'с' 'с', .rng 'ᲃ' 'ᲃ'], .lit [' '], .cls false [.rng 'К' 'К', .rng 'к' 'к'], .cls false [.rng 'И' 'И', .rng 'и' 'и'], .cls false [.rng 'И' 'И', .rng 'и' 'и'], .cls false [.rng 'Н' 'Н', .rng 'н' 'н']], .seqs [.number, .lit [' '], .cls false [.rng 'С' 'С', .rng 'с' 'с', .rng 'ᲃ' 'ᲃ'], .lit [' '], .cls false [.rng 'М' 'М', .rng 'м' 'м'], .cls false [.rng 'У' 'У', .rng 'у' 'у'], .cls false [.rng 'Р' 'Р', .rng 'р' 'р'], .cls false [.rng 'Н' 'Н', .rng 'н' 'н']]]), .grp 3 (.alts [.eos, .cls true [.letter, .mark, .digit], .lit ['_']])], 3),
  rxExact := some (.seqs [.bos, .grp 1 (.alts [.seqs [.number, .lit [' '], .cls false [.rng 'С' 'С', .rng 'с' 'с', .rng 'ᲃ' 'ᲃ'], .cls false [.rng 'Е' 'Е', .rng 'е' 'е'], .cls false [.rng 'К' 'К', .rng 'к' 'к'], .cls false [.rng 'У' 'У', .rng 'у' 'у'], .cls false [.rng 'Н' 'Н', .rng 'н' 'н'], .cls false [.rng 'Д' 'Д', .rng 'д' 'д', .rng 'ᲁ' 'ᲁ'], .cls false [.rng 'Д' 'Д', .rng 'д' 'д', .rng 'ᲁ' 'ᲁ'], .cls false [.rng 'А' 'А', .rng 'а' 'а'], .cls false [.rng 'Н' 'Н', .rng 'н' 'н'], .lit [' '], .cls false [.rng 'К' 'К', .rng 'к' 'к'], .cls false [.rng 'И' 'И', .rng 'и' 'и'], .cls false [.rng 'И' 'И', .rng 'и' 'и'], .cls false [.rng 'И' 'И', .rng 'и' 'и'], .cls false [.rng 'Н' 'Н', .rng 'н' 'н']], .seqs [.number, .lit [' '], .cls false [.rng 'М' 'М', .rng 'м' 'м'], .cls false [.rng 'Ү' 'Ү', .rng 'ү' 'ү'], .cls false [.rng 'Н' 'Н', .rng 'н' 'н'], .cls false [.rng 'Ө' 'Ө', .rng 'ө' 'ө'], .cls false [.rng 'Т' 'Т', .rng 'т' 'т', .rng 'ᲄ' 'ᲄ', .rng 'ᲅ' 'ᲅ'], .cls false [.rng 'Т' 'Т', .rng 'т' 'т', .rng 'ᲄ' 'ᲄ', .rng 'ᲅ' 'ᲅ'], .cls false [.rng 'Ө' 'Ө', .rng 'ө' 'ө'], .cls false [.rng 'Н' 'Н', .rng 'н' 'н'], .lit [' '], .cls false [.rng 'К' 'К', .rng 'к' 'к'], .cls false [.rng 'И' 'И', .rng 'и' 'и'], .cls false [.rng 'И' 'И', .rng 'и' 'и'], .cls false [.rng 'И' 'И', .rng 'и' 'и'], .cls false [.rng 'Н' 'Н', .rng 'н' 'н']], .seqs [.number, .lit [' '], .cls false [.rng 'А' 'А', .rng 'а' 'а'], .cls false [.rng 'П' 'П', .rng 'п' 'п'], .cls false [.rng 'Т' 'Т', .rng 'т' 'т', .rng 'ᲄ' 'ᲄ', .rng 'ᲅ' 'ᲅ'], .cls false [.rng 'А' 'А', .rng 'а' 'а'], .cls false [.rng 'Д' 'Д', .rng 'д' 'д', .rng 'ᲁ' 'ᲁ'], .cls false [.rng 'А' 'А', .rng 'а' 'а'], .cls false [.rng 'Н' 'Н', .rng 'н' 'н'], .lit [' '], .cls false [.rng 'К' 'К', .rng 'к' 'к'], .cls false [.rng 'И' 'И', .rng 'и' 'и'], .cls false [.rng 'И' 'И', .rng 'и' 'и'], .cls false [.rng 'И' 'И', .rng 'и' 'и'], .cls false [.rng 'Н' 'Н', .rng 'н' 'н']], .seqs [.number, .lit [' '], .cls false [.rng 'С' 'С', .rng 'с' 'с', .rng 'ᲃ' 'ᲃ'], .cls false [.rng 'А' 'А', .rng 'а' 'а'], .cls false [.rng 'А' 'А', .rng 'а' 'а'], .cls false [.rng 'Т' 'Т', .rng 'т' 'т', .rng 'ᲄ' 'ᲄ', .rng 'ᲅ' 'ᲅ'], .cls false [.rng 'Т' 'Т', .rng 'т' 'т', .rng 'ᲄ' 'ᲄ', .rng 'ᲅ' 'ᲅ'], .cls false [.rng 'А' 'А', .rng 'а' 'а'], .cls false [.rng 'Н' 'Н', .rng 'н' 'н'], .lit [' '], .cls false [.rng 'К' 'К', .rng 'к' 'к'], .cls false [.rng 'И' 'И', .rng 'и' 'и'], .cls false [.rng 'И' 'И', .rng 'и' 'и'], .cls false [.rng 'И' 'И', .rng 'и' 'и'], .cls false [.rng 'Н' 'Н', .rng 'н' 'н']], .seqs [.number, .lit [' '], .cls false [.rng 'Ж' 'Ж', .rng 'ж' 'ж'], .cls false [.rng 'Ы' 'Ы', .rng 'ы' 'ы'], .cls false [.rng 'Л' 'Л', .rng 'л' 'л'], .cls false [.rng 'Д' 'Д', .rng 'д' 'д', .rng 'ᲁ' 'ᲁ'], .cls false [.rng 'А' 'А', .rng 'а' 'а'], .cls false [.rng 'Н' 'Н', .rng 'н' 'н'], .lit [' '], .cls false [.rng 'К' 'К', .rng 'к' 'к'], .cls false [.rng 'И' 'И', .rng 'и' 'и'], .cls false [.rng 'И' 'И', .rng 'и' 'и'], .cls false [.rng 'И' 'И', .rng 'и' 'и'], .cls false [.rng 'Н' 'Н', .rng 'н' 'н']], .seqs [.number, .lit [' '], .cls false [.rng 'К' 'К', .rng 'к' 'к'], .cls false [.rng 'Ү' 'Ү', .rng 'ү' 'ү'], .cls false [.rng 'Н' 'Н', .rng 'н' 'н'], .cls false [.rng 'Д' 'Д', .rng 'д' 'д', .rng 'ᲁ' 'ᲁ'], .cls false [.rng 'Ө' 'Ө', .rng 'ө' 'ө'], .cls false [.rng 'Н' 'Н', .rng 'н' 'н'], .lit [' '], .cls false [.rng 'К' 'К', .rng 'к' 'к'], .cls false [.rng 'И' 'И', .rng 'и' 'и'], .cls false [.rng 'И' 'И', .rng 'и' 'и'], .cls false [.rng 'И' 'И', .rng 'и' 'и'], .cls false [.rng 'Н' 'Н', .rng 'н' 'н']], .seqs [.number, .lit [' '], .cls false [.rng 'С' 'С', .rng 'с' 'с', .rng 'ᲃ' 'ᲃ'], .cls false [.rng 'Е' 'Е', .rng 'е' 'е'], .cls false [.rng 'К' 'К', .rng 'к' 'к'], .cls false [.rng 'У' 'У', .rng 'у' 'у'], .cls false [.rng 'Н' 'Н', .rng 'н' 'н'], .cls false [.rng 'Д' 'Д', .rng 'д' 'д', .rng 'ᲁ' 'ᲁ'], .lit [' '], .cls false [.rng 'М' 'М', .rng 'м' 'м'], .cls false [.rng 'У' 'У', .rng 'у' 'у'], .cls false [.rng 'Р' 'Р', .rng 'р' 'р'], .cls false [.rng 'У' 'У', .rng 'у' 'у'], .cls false [.rng 'Н' 'Н', .rng 'н' 'н']], .seqs [.number, .lit [' '], .cls false [.rng 'А' 'А', .rng 'а' 'а'], .cls false [.rng 'И' 'И', .rng 'и' 'и'], .cls false [.rng 'Д' 'Д', .rng 'д' 'д', .rng 'ᲁ' 'ᲁ'], .cls false [.rng 'А' 'А', .rng 'а' 'а'], .cls false [.rng 'Н' 'Н', .rng 'н' 'н'], .lit [' '], .cls false [.rng 'К' 'К', .rng 'к' 'к'], .cls false [.rng 'И' 'И', .rng 'и' 'и'], .cls false [.rng 'И' 'И', .rng 'и' 'и'], .cls false [.rng 'И' 'И', .rng 'и' 'и'], .cls false [.rng 'Н' 'Н', .rng 'н' 'н']], .seqs [.number, .lit [' '], .cls false [.rng 'М' 'М', .rng 'м' 'м'], .cls false [.rng 'Ү' 'Ү', .rng 'ү' 'ү'], .cls false [.rng 'Н' 'Н', .rng 'н' 'н'], .cls false [.rng 'Ө' 'Ө', .rng 'ө' 'ө'], .cls false [.rng 'Т' 'Т', .rng 'т' 'т', .rng 'ᲄ' 'ᲄ', .rng 'ᲅ' 'ᲅ'], .lit [' '], .cls false [.rng 'М' 'М', .rng 'м' 'м'], .cls false [.rng 'У' 'У', .rng 'у' 'у'], .cls false [.rng 'Р' 'Р', .rng 'р' 'р'], .cls false [.rng 'У' 'У', .rng 'у' 'у'], .cls false [.rng 'Н' 'Н', .rng 'н' 'н']], .seqs [.number, .lit [' '], .cls false [.rng 'А' 'А', .rng 'а' 'а'], .cls false [.rng 'П' 'П', .rng 'п' 'п'], .cls false [.rng 'Т' 'Т', .rng 'т' 'т', .rng 'ᲄ' 'ᲄ', .rng 'ᲅ' 'ᲅ'], .cls false [.rng 'А' 'А', .rng 'а' 'а'], .lit [' '], .cls false [.rng 'М' 'М', .rng 'м' 'м'], .cls false [.rng 'У' 'У', .rng 'у' 'у'], .cls false [.rng 'Р' 'Р', .rng 'р' 'р'], .cls false [.rng 'У' 'У', .rng 'у' 'у'], .cls false [.rng 'Н' 'Н', .rng 'н' 'н']], .seqs [.number, .lit [' '], .cls false [.rng 'С' 'С', .rng 'с' 'с', .rng 'ᲃ' 'ᲃ'], .cls false [.rng 'А' 'А', .rng 'а' 'а'], .cls false [.rng 'А' 'А', .rng 'а' 'а'], .cls false [.rng 'Т' 'Т', .rng 'т' 'т', .rng 'ᲄ' 'ᲄ', .rng 'ᲅ' 'ᲅ'], .lit [' '], .cls false [.rng 'К' 'К', .rng 'к' 'к'], .cls false [.rng 'И' 'И', .rng 'и' 'и'], .cls false [.rng 'И' 'И', .rng 'и' 'и'], .cls false [.rng 'И' 'И', .rng 'и' 'и'], .cls false [.rng 'Н' 'Н', .rng 'н' 'н']], .seqs [.number, .lit [' '], .cls false [.rng 'С' 'С', .rng 'с' 'с', .rng 'ᲃ' 'ᲃ'], .cls false [.rng 'А' 'А', .rng 'а' 'а'], .cls false [.rng 'А' 'А', .rng 'а' 'а'], .cls false [.rng 'Т' 'Т', .rng 'т' 'т', .rng 'ᲄ' 'ᲄ', .rng 'ᲅ' 'ᲅ'], .lit [' '], .cls false [.rng 'М' 'М', .rng 'м' 'м'], .cls false [.rng 'У' 'У', .rng 'у' 'у'], .cls false [.rng 'Р' 'Р', .rng 'р' 'р'], .cls false [.rng 'У' 'У', .rng 'у' 'у'], .cls false [.rng 'Н' 'Н', .rng 'н' 'н']], .seqs [.number, .lit [' '], .cls false [.rng 'А' 'А', .rng 'а' 'а'], .cls false [.rng 'И' 'И', .rng 'и' 'и'], .cls false [.rng 'Д' 'Д', .rng 'д' 'д', .rng 'ᲁ' 'ᲁ'], .lit [' '], .cls false [.rng 'К' 'К', .rng 'к' 'к'], .cls false [.rng 'И' 'И', .rng 'и' 'и'], .cls false [.rng 'И' 'И', .rng 'и' 'и'], .cls false [.rng 'И' 'И', .rng 'и' 'и'], .cls false [.rng 'Н' 'Н', .rng 'н' 'н']], .seqs [.number, .lit [' '], .cls false [.rng 'А' 'А', .rng 'а' 'а'], .cls false [.rng 'П' 'П', .rng 'п' 'п'], .cls false [.rng 'Т' 'Т', .rng 'т' 'т', .rng 'ᲄ' 'ᲄ', .rng 'ᲅ' 'ᲅ'], .lit [' '], .cls false [.rng 'К' 'К', .rng 'к' 'к'], .cls false [.rng 'И' 'И', .rng 'и' 'и'], .cls false [.rng 'И' 'И', .rng 'и' 'и'], .cls false [.rng 'И' 'И', .rng 'и' 'и'], .cls false [.rng 'Н' 'Н', .rng 'н' 'н']], .seqs [.number, .lit [' '], .cls false [.rng 'А' 'А', .rng 'а' 'а'], .cls false [.rng 'П' 'П', .rng 'п' 'п'], .cls false [.rng 'Т' 'Т', .rng 'т' 'т', .rng 'ᲄ' 'ᲄ', .rng 'ᲅ' 'ᲅ'], .lit [' '], .cls false [.rng 'М' 'М', .rng 'м' 'м'], .cls false [.rng 'У' 'У', .rng 'у' 'у'], .cls false [.rng 'Р' 'Р', .rng 'р' 'р'], .cls false [.rng 'У' 'У', .rng 'у' 'у'], .cls false [.rng 'Н' 'Н', .rng 'н' 'н']], .seqs [.number, .lit [' '], .cls false [.rng 'Ж' 'Ж', .rng 'ж' 'ж'], .cls false [.rng 'Ы' 'Ы', .rng 'ы' 'ы'], .cls false [.rng 'Л' 'Л', .rng 'л' 'л'], .lit [' '], .cls false [.rng 'К' 'К', .rng 'к' 'к'], .cls false [.rng 'И' 'И', .rng 'и' 'и'], .cls false [.rng 'И' 'И', .rng 'и' 'и'], .cls false [.rng 'И' 'И', .rng 'и' 'и'], .cls false [.rng 'Н' 'Н', .rng 'н' 'н']], .seqs [.number, .lit [' '], .cls false [.rng 'Ж' 'Ж', .rng 'ж' 'ж'], .cls false [.rng 'Ы' 'Ы', .rng 'ы' 'ы'], .cls false [.rng 'Л' 'Л', .rng 'л' 'л'], .lit [' '], .cls false [.rng 'М' 'М', .rng 'м' 'м'], .cls false [.rng 'У' 'У', .rng 'у' 'у'], .cls false [.rng 'Р' 'Р', .rng 'р' 'р'], .cls false [.rng 'У' 'У', .rng 'у' 'у'], .cls false [.rng 'Н' 'Н', .rng 'н' 'н']], .seqs [.number, .lit [' '], .cls false [.rng 'К' 'К', .rng 'к' 'к'], .cls false [.rng 'Ү' 'Ү', .rng 'ү' 'ү'], .cls false [.rng 'Н' 'Н', .rng 'н' 'н'], .lit [' '], .cls false [.rng 'К' 'К', .rng 'к' 'к'], .cls false [.rng 'И' 'И', .rng 'и' 'и'], .cls false [.rng 'И' 'И', .rng 'и' 'и'], .cls false [.rng 'И' 'И', .rng 'и' 'и'], .cls false [.rng 'Н' 'Н', .rng 'н' 'н']], .seqs [.number, .lit [' '], .cls false [.rng 'К' 'К', .rng 'к' 'к'], .cls false [.rng 'Ү' 'Ү', .rng 'ү' 'ү'], .cls false [.rng 'Н' 'Н', .rng 'н' 'н'], .lit [' '], .cls false [.rng 'М' 'М', .rng 'м' 'м'], .cls false [.rng 'У' 'У', .rng 'у' 'у'], .cls false [.rng 'Р' 'Р', .rng 'р' 'р'], .cls false [.rng 'У' 'У', .rng 'у' 'у'], .cls false [.rng 'Н' 'Н', .rng 'н' 'н']], .seqs [.number, .lit [' '], .cls false [.rng 'М' 'М', .rng 'м' 'м'], .cls false [.rng 'Ү' 'Ү', .rng 'ү' 'ү'], .cls false [.rng 'Н' 'Н', .rng 'н' 'н'], .lit [' '], .cls false [.rng 'К' 'К', .rng 'к' 'к'], .cls false [.rng 'И' 'И', .rng 'и' 'и'], .cls false [.rng 'И' 'И', .rng 'и' 'и'], .cls false [.rng 'И' 'И', .rng 'и' 'и'], .cls false [.rng 'Н' 'Н', .rng 'н' 'н']], .seqs [.number, .lit [' '], .cls false [.rng 'М' 'М', .rng 'м' 'м'], .cls false [.rng 'Ү' 'Ү', .rng 'ү' 'ү'], .cls false [.rng 'Н' 'Н', .rng 'н' 'н'], .lit [' '], .cls false [.rng 'М' 'М', .rng 'м' 'м'], .cls false [.rng 'У' 'У', .rng 'у' 'у'], .cls false [.rng 'Р' 'Р', .rng 'р' 'р'], .cls false [.rng 'У' 'У', .rng 'у' 'у'], .cls false [.rng 'Н' 'Н', .rng 'н' 'н']], .seqs [.number, .lit [' '], .cls false [.rng 'С' 'С', .rng 'с' 'с', .rng 'ᲃ' 'ᲃ'], .cls false [.rng 'Е' 'Е', .rng 'е' 'е'], .cls false [.rng 'К' 'К', .rng 'к' 'к'], .lit [' '], .cls false [.rng 'К' 'К', .rng 'к' 'к'], .cls false [.rng 'И' 'И', .rng 'и' 'и'], .cls false [.rng 'И' 'И', .rng 'и' 'и'], .cls false [.rng 'И' 'И', .rng 'и' 'и'], .cls false [.rng 'Н' 'Н', .rng 'н' 'н']], .seqs [.number, .lit [' '], .cls false [.rng 'С' 'С', .rng 'с' 'с', .rng 'ᲃ' 'ᲃ'], .cls false [.rng 'Е' 'Е', .rng 'е' 'е'], .cls false [.rng 'К' 'К', .rng 'к' 'к'], .lit [' '], .cls false [.rng 'М' 'М', .rng 'м' 'м'], .cls false [.rng 'У' 'У', .rng 'у' 'у'], .cls false [.rng 'Р' 'Р', .rng 'р' 'р'], .cls false [.rng 'У' 'У', .rng 'у' 'у'], .cls false [.rng 'Н' 'Н', .rng 'н' 'н']], .seqs [.number, .lit [' '], .cls false [.rng 'А' 'А', .rng 'а' 'а'], .cls false [.rng 'И' 'И', .rng 'и' 'и'], .lit [' '], .cls false [.rng 'М' 'М', .rng 'м' 'м'], .cls false [.rng 'У' 'У', .rng 'у' 'у'], .cls false [.rng 'Р' 'Р', .rng 'р' 'р'], .cls false [.rng 'У' 'У', .rng 'у' 'у'], .cls false [.rng 'Н' 'Н', .rng 'н' 'н']], .seqs [.number, .lit [' '], .cls false [.rng 'А' 'А', .rng 'а' 'а'], .cls false [.rng 'И' 'И', .rng 'и' 'и'], .cls false [.rng 'Д' 'Д', .rng 'д' 'д', .rng 'ᲁ' 'ᲁ'], .lit [' '], .cls false [.rng 'К' 'К', .rng 'к' 'к'], .cls false [.rng 'И' 'И', .rng 'и' 'и'], .cls false [.rng 'И' 'И', .rng 'и' 'и'], .cls false [.rng 'Н' 'Н', .rng 'н' 'н']], .seqs [.number, .lit [' '], .cls false [.rng 'М' 'М', .rng 'м' 'м'], .cls false [.rng 'Ү' 'Ү', .rng 'ү' 'ү'], .cls false [.rng 'Н' 'Н', .rng 'н' 'н'], .lit [' '], .cls false [.rng 'К' 'К', .rng 'к' 'к'], .cls false [.rng 'И' 'И', .rng 'и' 'и'], .cls false [.rng 'И' 'И', .rng 'и' 'и'], .cls false [.rng 'Н' 'Н', .rng 'н' 'н']], .seqs [.number, .lit [' '], .cls false [.rng 'М' 'М', .rng 'м' 'м'], .cls false [.rng 'Ү' 'Ү', .rng 'ү' 'ү'], .cls false [.rng 'Н' 'Н', .rng 'н' 'н'], .lit [' '], .cls false [.rng 'М' 'М', .rng 'м' 'м'], .cls false [.rng 'У' 'У', .rng 'у' 'у'], .cls false [.rng 'Р' 'Р', .rng 'р' 'р'], .cls false [.rng 'Н' 'Н', .rng 'н' 'н']], .seqs [.number, .lit [' '], .cls false [.rng 'С' 'С', .rng 'с' 'с', .rng 'ᲃ' 'ᲃ'], .cls false [.rng 'Е' 'Е', .rng 'е' 'е'], .cls false [.rng 'К' 'К', .rng 'к' 'к'], .lit [' '], .cls false [.rng 'К' 'К', .rng 'к' 'к'], .cls false [.rng 'И' 'И', .rng 'и' 'и'], .cls false [.rng 'И' 'И', .rng 'и' 'и'], .cls false [.rng 'Н' 'Н', .rng 'н' 'н']], .seqs [.number, .lit [' '], .cls false [.rng 'С' 'С', .rng 'с' 'с', .rng 'ᲃ' 'ᲃ'], .cls false [.rng 'Е' 'Е', .rng 'е' 'е'], .cls false [.rng 'К' 'К', .rng 'к' 'к'], .lit [' '], .cls false [.rng 'М' 'М', .rng 'м' 'м'], .cls false [.rng 'У' 'У', .rng 'у' 'у'], .cls false [.rng 'Р' 'Р', .rng 'р' 'р'], .cls false [.rng 'Н' 'Н', .rng 'н' 'н']], .seqs [.number, .lit [' '], .cls false [.rng 'А' 'А', .rng 'а' 'а'], .cls false [.rng 'И' 'И', .rng 'и' 'и'], .lit [' '], .cls false [.rng 'М' 'М', .rng 'м' 'м'], .cls false [.rng 'У' 'У', .rng 'у' 'у'], .cls false [.rng 'Р' 'Р', .rng 'р' 'р'], .cls false [.rng 'Н' 'Н', .rng 'н' 'н']], .seqs [.number, .lit [' '], .cls false [.rng 'С' 'С', .rng 'с' 'с', .rng 'ᲃ' 'ᲃ'], .lit [' '], .cls false [.rng 'К' 'К', .rng 'к' 'к'], .cls false [.rng 'И' 'И', .rng 'и' 'и'], .cls false [.rng 'И' 'И', .rng 'и' 'и'], .cls false [.rng 'Н' 'Н', .rng 'н' 'н']], .seqs [.number, .lit [' '], .cls false [.rng 'С' 'С', .rng 'с' 'с', .rng 'ᲃ' 'ᲃ'], .lit [' '], .cls false [.rng 'М' 'М', .rng 'м' 'м'], .cls false [.rng 'У' 'У', .rng 'у' 'у'], .cls false [.rng 'Р' 'Р', .rng 'р' 'р'], .cls false [.rng 'Н' 'Н', .rng 'н' 'н']]]), .eos]),
  knownWords :=
   [['к', 'е', 'л', 'е', 'р', 'к', 'и', ' ', 'а', 'п', 'т', 'а', 'д', 'а'], ['т', 'ү', 'ш', 'т', 'ө', 'н', ' ', 'к', 'и', 'и', 'и', 'н', 'к', 'и'], ['у', 'ш', 'у', 'л', ' ', 'м', 'ү', 'н', 'ө', 'т', 'т', 'ө'], ['ө', 'т', 'к', 'ө', 'н', ' ', 'а', 'п', 'т', 'а', 'д', 'а'], ['к', 'е', 'л', 'е', 'р', 'к', 'и', ' ', 'а', 'п', 'т'], ['у', 'ш', 'у', 'л', ' ', 'а', 'п', 'т', 'а', 'д', 'а'], ['у', 'ш', 'у', 'л', ' ', 'с', 'а', 'а', 'т', 'т', 'а'], ['э', 'м', 'д', 'и', 'г', 'и', ' ', 'а', 'и', 'д', 'а'], ['э', 'м', 'д', 'и', 'г', 'и', ' ', 'ж', 'ы', 'л', 'ы'], ['ө', 'т', 'к', 'ө', 'н', ' ', 'а', 'и', 'д', 'а'], ['ө', 'т', 'к', 'ө', 'н', ' ', 'а', 'п', 'т'], ['б', 'е', 'и', 'ш', 'е', 'м', 'б', 'и'], ['б', 'у', 'л', ' ', 'а', 'и', 'д', 'а'], ['д', 'ү', 'и', 'ш', 'ө', 'м', 'б', 'ү'], ['ж', 'е', 'к', 'ш', 'е', 'м', 'б', 'и'], ['с', 'е', 'н', 'т', 'я', 'б', 'р', 'ь'], ['у', 'ш', 'у', 'л', ' ', 'а', 'п', 'т'], ['ш', 'а', 'р', 'ш', 'е', 'м', 'б', 'и'], ['ш', 'е', 'и', 'ш', 'е', 'м', 'б', 'и'], ['д', 'е', 'к', 'а', 'б', 'р', 'ь'], ['о', 'к', 'т', 'я', 'б', 'р', 'ь'], ['ф', 'е', 'в', 'р', 'а', 'л', 'ь'], ['а', 'в', 'г', 'у', 'с', 'т'], ['а', 'п', 'р', 'е', 'л', 'ь'], ['б', 'ы', 'л', 'т', 'ы', 'р'], ['и', 'ш', 'е', 'м', 'б', 'и'], ['н', 'о', 'я', 'б', 'р', 'ь'], ['с', 'е', 'к', 'у', 'н', 'д'], ['я', 'н', 'в', 'а', 'р', 'ь'], ['б', 'ы', 'и', 'ы', 'л'], ['б', 'ү', 'г', 'ү', 'н'], ['к', 'е', 'ч', 'э', 'э'], ['м', 'ү', 'н', 'ө', 'т'], ['т', 'а', 'ң', 'к', 'ы'], ['э', 'р', 'т', 'е', 'ӊ'], ['а', 'з', 'ы', 'р'], ['а', 'п', 'т', 'а'], ['б', 'е', 'и', 'ш'], ['ж', 'у', 'м', 'а'], ['и', 'ю', 'л', 'ь'], ['и', 'ю', 'н', 'ь'], ['м', 'а', 'р', 'т'], ['с', 'а', 'а', 'т'], ['ш', 'а', 'р', 'ш'], ['ш', 'е', 'и', 'ш'], ['g', 'm', 't'], ['u', 't', 'c'], ['а', 'в', 'г'], ['а', 'п', 'р'], ['а', 'п', 'т'], ['д', 'е', 'к'], ['д', 'ү', 'и'], ['ж', 'е', 'к'], ['ж', 'ы', 'л'], ['и', 'ш', 'м'], ['и', 'ю', 'л'], ['и', 'ю', 'н'], ['к', 'ү', 'н'], ['м', 'а', 'и'], ['м', 'а', 'р'], ['м', 'ү', 'н'], ['н', 'о', 'я'], ['о', 'к', 'т'], ['с', 'е', 'к'], ['с', 'е', 'н'], ['ф', 'е', 'в'], ['я', 'н', 'в'], ['a', 'm'], ['p', 'm'], ['а', 'и'], ['с', 'т'], ['т', 'к'], ['т', 'ң'], [' '], ['\''], ['+'], [','], ['-'], ['.'], ['/'], [':'], [';'], ['@'], ['['], [']'], ['z'], ['|'], ['ж'], ['м']] }

end Verif.Data
