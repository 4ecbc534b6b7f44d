import Verif.Data.Dicts
/-! GENERATED by tools/gen_pats.py from /repo/internal/data; do not edit. -/
set_option autoImplicit false
set_option maxRecDepth 100000
namespace Verif.Data
open Verif.Model

/-- internal/data/el.go: `el_CY_Locale`. -/
def el_CYLang : LangData := el_CYDict

/-- internal/data/en.go: `en_Locale`. -/
def enLang : LangData := { enDict with
  simplifications :=
   [(.seqs [.grp 1 (.alts [.bos, .noWord]), .lit ['a', 'n'], .grp 2 (.alts [.eos, .noWord])], [.ref 1, .lit ['1'], .ref 2]),
    (.seqs [.grp 1 (.alts [.bos, .noWord]), .lit ['a'], .grp 2 (.alts [.eos, .noWord])], [.ref 1, .lit ['1'], .ref 2]),
    (.seqs [.grp 1 (.alts [.bos, .noWord]), .opt (.seqs [.lit ['1', '2'], .plus (.cls false [.space])]), .lit ['n', 'o', 'o', 'n'], .grp 2 (.alts [.eos, .noWord])], [.ref 1, .lit ['1', '2', ':', '0', '0'], .ref 2]),
    (.seqs [.grp 1 (.alts [.bos, .noWord]), .opt (.seqs [.lit ['1', '2'], .plus (.cls false [.space])]), .lit ['m', 'i', 'd', 'n', 'i', 'g', 'h', 't'], .grp 2 (.alts [.eos, .noWord])], [.ref 1, .lit ['0', '0', ':', '0', '0'], .ref 2]),
    (.seqs [.grp 1 (.alts [.bos, .noWord]), .grp 2 (.number), .lit ['h'], .grp 3 (.number), .grp 4 (.alts [.eos, .noWord])], [.ref 1, .ref 2, .lit [':'], .ref 3, .ref 4]),
    (.seqs [.grp 1 (.alts [.bos, .noWord]), .grp 2 (.seqs [.lit ['f', 'r', 'o', 'm'], .plus (.cls false [.space])]), .lit ['n', 'o', 'w'], .grp 3 (.alts [.eos, .noWord])], [.ref 1, .ref 2, .lit ['i', 'n'], .ref 3]),
    (.seqs [.grp 1 (.alts [.bos, .noWord]), .lit ['l', 'e', 's', 's', ' ', 't', 'h', 'a', 'n', ' ', '1', ' ', 'm', 'i', 'n', 'u', 't', 'e', ' ', 'a', 'g', 'o'], .grp 2 (.alts [.eos, .noWord])], [.ref 1, .lit ['4', '5', ' ', 's', 'e', 'c', 'o', 'n', 'd', ' ', 'a', 'g', 'o'], .ref 2]),
    (.seqs [.grp 1 (.alts [.bos, .noWord]), .grp 2 (.number), .lit [' '], .grp 3 (.alts [.lit ['d', 'e', 'c', 'a', 'd', 'e'], .lit ['y', 'e', 'a', 'r'], .lit ['m', 'o', 'n', 't', 'h'], .lit ['w', 'e', 'e', 'k'], .lit ['d', 'a', 'y'], .lit ['h', 'o', 'u', 'r'], .lit ['m', 'i', 'n', 'u', 't', 'e'], .lit ['s', 'e', 'c', 'o', 'n', 'd']]), .opt (.lit ['s']), .lit [' ', 'l', 'a', 't', 'e', 'r'], .grp 4 (.alts [.eos, .noWord])], [.ref 1, .lit ['i', 'n', ' '], .ref 2, .lit [' '], .ref 3, .ref 4]),
    (.seqs [.grp 1 (.alts [.bos, .noWord]), .lit ['o', 'n', 'e'], .grp 2 (.alts [.eos, .noWord])], [.ref 1, .lit ['1'], .ref 2]),
    (.seqs [.grp 1 (.alts [.bos, .noWord]), .lit ['t', 'w', 'o'], .grp 2 (.alts [.eos, .noWord])], [.ref 1, .lit ['2'], .ref 2]),
    (.seqs [.grp 1 (.alts [.bos, .noWord]), .lit ['t', 'h', 'r', 'e', 'e'], .grp 2 (.alts [.eos, .noWord])], [.ref 1, .lit ['3'], .ref 2]),
    (.seqs [.grp 1 (.alts [.bos, .noWord]), .lit ['f', 'o', 'u', 'r'], .grp 2 (.alts [.eos, .noWord])], [.ref 1, .lit ['4'], .ref 2]),
    (.seqs [.grp 1 (.alts [.bos, .noWord]), .lit ['f', 'i', 'v', 'e'], .grp 2 (.alts [.eos, .noWord])], [.ref 1, .lit ['5'], .ref 2]),
    (.seqs [.grp 1 (.alts [.bos, .noWord]), .lit ['s', 'i', 'x'], .grp 2 (.alts [.eos, .noWord])], [.ref 1, .lit ['6'], .ref 2]),
    (.seqs [.grp 1 (.alts [.bos, .noWord]), .lit ['s', 'e', 'v', 'e', 'n'], .grp 2 (.alts [.eos, .noWord])], [.ref 1, .lit ['7'], .ref 2]),
    (.seqs [.grp 1 (.alts [.bos, .noWord]), .lit ['e', 'i', 'g', 'h', 't'], .grp 2 (.alts [.eos, .noWord])], [.ref 1, .lit ['8'], .ref 2]),
    (.seqs [.grp 1 (.alts [.bos, .noWord]), .lit ['n', 'i', 'n', 'e'], .grp 2 (.alts [.eos, .noWord])], [.ref 1, .lit ['9'], .ref 2]),
    (.seqs [.grp 1 (.alts [.bos, .noWord]), .lit ['t', 'e', 'n'], .grp 2 (.alts [.eos, .noWord])], [.ref 1, .lit ['1', '0'], .ref 2]),
    (.seqs [.grp 1 (.alts [.bos, .noWord]), .lit ['e', 'l', 'e', 'v', 'e', 'n'], .grp 2 (.alts [.eos, .noWord])], [.ref 1, .lit ['1', '1'], .ref 2]),
    (.seqs [.grp 1 (.alts [.bos, .noWord]), .lit ['t', 'w', 'e', 'l', 'v', 'e'], .grp 2 (.alts [.eos, .noWord])], [.ref 1, .lit ['1', '2'], .ref 2])],
  relativeRegexes :=
   [(.seqs [.grp 1 (.number), .lit [' ', 'd', 'e', 'c', 'a', 'd', 'e'], .opt (.lit ['s']), .lit [' ', 'a', 'g', 'o']], [.ref 1, .lit [' ', 'd', 'e', 'c', 'a', 'd', 'e', ' ', 'a', 'g', 'o']]),
    (.seqs [.grp 1 (.number), .lit [' ', 'm', 'i', 'n', 'u', 't', 'e', 's', ' ', 'a', 'g', 'o']], [.ref 1, .lit [' ', 'm', 'i', 'n', 'u', 't', 'e', ' ', 'a', 'g', 'o']]),
    (.seqs [.grp 1 (.number), .lit [' ', 's', 'e', 'c', 'o', 'n', 'd', 's', ' ', 'a', 'g', 'o']], [.ref 1, .lit [' ', 's', 'e', 'c', 'o', 'n', 'd', ' ', 'a', 'g', 'o']]),
    (.seqs [.lit ['i', 'n', ' '], .grp 1 (.number), .lit [' ', 'd', 'e', 'c', 'a', 'd', 'e'], .opt (.lit ['s'])], [.lit ['i', 'n', ' '], .ref 1, .lit [' ', 'd', 'e', 'c', 'a', 'd', 'e']]),
    (.seqs [.grp 1 (.number), .lit [' ', 'm', 'i', 'n', 'u', 't', 'e', ' ', 'a', 'g', 'o']], [.ref 1, .lit [' ', 'm', 'i', 'n', 'u', 't', 'e', ' ', 'a', 'g', 'o']]),
    (.seqs [.grp 1 (.number), .lit [' ', 'm', 'o', 'n', 't', 'h', 's', ' ', 'a', 'g', 'o']], [.ref 1, .lit [' ', 'm', 'o', 'n', 't', 'h', ' ', 'a', 'g', 'o']]),
    (.seqs [.grp 1 (.number), .lit [' ', 's', 'e', 'c', 'o', 'n', 'd', ' ', 'a', 'g', 'o']], [.ref 1, .lit [' ', 's', 'e', 'c', 'o', 'n', 'd', ' ', 'a', 'g', 'o']]),
    (.seqs [.lit ['i', 'n', ' '], .grp 1 (.number), .lit [' ', 'm', 'i', 'n', 'u', 't', 'e', 's']], [.lit ['i', 'n', ' '], .ref 1, .lit [' ', 'm', 'i', 'n', 'u', 't', 'e']]),
    (.seqs [.lit ['i', 'n', ' '], .grp 1 (.number), .lit [' ', 's', 'e', 'c', 'o', 'n', 'd', 's']], [.lit ['i', 'n', ' '], .ref 1, .lit [' ', 's', 'e', 'c', 'o', 'n', 'd']]),
    (.seqs [.grp 1 (.number), .lit [' ', 'h', 'o', 'u', 'r', 's', ' ', 'a', 'g', 'o']], [.ref 1, .lit [' ', 'h', 'o', 'u', 'r', ' ', 'a', 'g', 'o']]),
    (.seqs [.grp 1 (.number), .lit [' ', 'm', 'o', 'n', 't', 'h', ' ', 'a', 'g', 'o']], [.ref 1, .lit [' ', 'm', 'o', 'n', 't', 'h', ' ', 'a', 'g', 'o']]),
    (.seqs [.grp 1 (.number), .lit [' ', 'w', 'e', 'e', 'k', 's', ' ', 'a', 'g', 'o']], [.ref 1, .lit [' ', 'w', 'e', 'e', 'k', ' ', 'a', 'g', 'o']]),
    (.seqs [.grp 1 (.number), .lit [' ', 'y', 'e', 'a', 'r', 's', ' ', 'a', 'g', 'o']], [.ref 1, .lit [' ', 'y', 'e', 'a', 'r', ' ', 'a', 'g', 'o']]),
    (.seqs [.lit ['i', 'n', ' '], .grp 1 (.number), .lit [' ', 'm', 'i', 'n', 'u', 't', 'e']], [.lit ['i', 'n', ' '], .ref 1, .lit [' ', 'm', 'i', 'n', 'u', 't', 'e']]),
    (.seqs [.lit ['i', 'n', ' '], .grp 1 (.number), .lit [' ', 'm', 'o', 'n', 't', 'h', 's']], [.lit ['i', 'n', ' '], .ref 1, .lit [' ', 'm', 'o', 'n', 't', 'h']]),
    (.seqs [.lit ['i', 'n', ' '], .grp 1 (.number), .lit [' ', 's', 'e', 'c', 'o', 'n', 'd']], [.lit ['i', 'n', ' '], .ref 1, .lit [' ', 's', 'e', 'c', 'o', 'n', 'd']]),
    (.seqs [.grp 1 (.number), .lit [' ', 'd', 'a', 'y', 's', ' ', 'a', 'g', 'o']], [.ref 1, .lit [' ', 'd', 'a', 'y', ' ', 'a', 'g', 'o']]),
    (.seqs [.grp 1 (.number), .lit [' ', 'h', 'o', 'u', 'r', ' ', 'a', 'g', 'o']], [.ref 1, .lit [' ', 'h', 'o', 'u', 'r', ' ', 'a', 'g', 'o']]),
    (.seqs [.grp 1 (.number), .lit [' ', 'w', 'e', 'e', 'k', ' ', 'a', 'g', 'o']], [.ref 1, .lit [' ', 'w', 'e', 'e', 'k', ' ', 'a', 'g', 'o']]),
    (.seqs [.grp 1 (.number), .lit [' ', 'y', 'e', 'a', 'r', ' ', 'a', 'g', 'o']], [.ref 1, .lit [' ', 'y', 'e', 'a', 'r', ' ', 'a', 'g', 'o']]),
    (.seqs [.lit ['i', 'n', ' '], .grp 1 (.number), .lit [' ', 'h', 'o', 'u', 'r', 's']], [.lit ['i', 'n', ' '], .ref 1, .lit [' ', 'h', 'o', 'u', 'r']]),
    (.seqs [.lit ['i', 'n', ' '], .grp 1 (.number), .lit [' ', 'm', 'o', 'n', 't', 'h']], [.lit ['i', 'n', ' '], .ref 1, .lit [' ', 'm', 'o', 'n', 't', 'h']]),
    (.seqs [.lit ['i', 'n', ' '], .grp 1 (.number), .lit [' ', 'w', 'e', 'e', 'k', 's']], [.lit ['i', 'n', ' '], .ref 1, .lit [' ', 'w', 'e', 'e', 'k']]),
    (.seqs [.lit ['i', 'n', ' '], .grp 1 (.number), .lit [' ', 'y', 'e', 'a', 'r', 's']], [.lit ['i', 'n', ' '], .ref 1, .lit [' ', 'y', 'e', 'a', 'r']]),
    (.seqs [.grp 1 (.number), .lit [' ', 'd', 'a', 'y', ' ', 'a', 'g', 'o']], [.ref 1, .lit [' ', 'd', 'a', 'y', ' ', 'a', 'g', 'o']]),
    (.seqs [.grp 1 (.number), .lit [' ', 'm', 'i', 'n', ' ', 'a', 'g', 'o']], [.ref 1, .lit [' ', 'm', 'i', 'n', 'u', 't', 'e', ' ', 'a', 'g', 'o']]),
    (.seqs [.grp 1 (.number), .lit [' ', 's', 'e', 'c', ' ', 'a', 'g', 'o']], [.ref 1, .lit [' ', 's', 'e', 'c', 'o', 'n', 'd', ' ', 'a', 'g', 'o']]),
    (.seqs [.lit ['i', 'n', ' '], .grp 1 (.number), .lit [' ', 'd', 'a', 'y', 's']], [.lit ['i', 'n', ' '], .ref 1, .lit [' ', 'd', 'a', 'y']]),
    (.seqs [.lit ['i', 'n', ' '], .grp 1 (.number), .lit [' ', 'h', 'o', 'u', 'r']], [.lit ['i', 'n', ' '], .ref 1, .lit [' ', 'h', 'o', 'u', 'r']]),
    (.seqs [.lit ['i', 'n', ' '], .grp 1 (.number), .lit [' ', 'w', 'e', 'e', 'k']], [.lit ['i', 'n', ' '], .ref 1, .lit [' ', 'w', 'e', 'e', 'k']]),
    (.seqs [.lit ['i', 'n', ' '], .grp 1 (.number), .lit [' ', 'y', 'e', 'a', 'r']], [.lit ['i', 'n', ' '], .ref 1, .lit [' ', 'y', 'e', 'a', 'r']]),
    (.seqs [.grp 1 (.number), .lit [' ', 'h', 'r', ' ', 'a', 'g', 'o']], [.ref 1, .lit [' ', 'h', 'o', 'u', 'r', ' ', 'a', 'g', 'o']]),
    (.seqs [.grp 1 (.number), .lit [' ', 'm', 'o', ' ', 'a', 'g', 'o']], [.ref 1, .lit [' ', 'm', 'o', 'n', 't', 'h', ' ', 'a', 'g', 'o']]),
    (.seqs [.grp 1 (.number), .lit [' ', 'w', 'k', ' ', 'a', 'g', 'o']], [.ref 1, .lit [' ', 'w', 'e', 'e', 'k', ' ', 'a', 'g', 'o']]),
    (.seqs [.grp 1 (.number), .lit [' ', 'y', 'r', ' ', 'a', 'g', 'o']], [.ref 1, .lit [' ', 'y', 'e', 'a', 'r', ' ', 'a', 'g', 'o']]),
    (.seqs [.lit ['i', 'n', ' '], .grp 1 (.number), .lit [' ', 'd', 'a', 'y']], [.lit ['i', 'n', ' '], .ref 1, .lit [' ', 'd', 'a', 'y']]),
    (.seqs [.lit ['i', 'n', ' '], .grp 1 (.number), .lit [' ', 'm', 'i', 'n']], [.lit ['i', 'n', ' '], .ref 1, .lit [' ', 'm', 'i', 'n', 'u', 't', 'e']]),
    (.seqs [.lit ['i', 'n', ' '], .grp 1 (.number), .lit [' ', 's', 'e', 'c']], [.lit ['i', 'n', ' '], .ref 1, .lit [' ', 's', 'e', 'c', 'o', 'n', 'd']]),
    (.seqs [.lit ['i', 'n', ' '], .grp 1 (.number), .lit [' ', 'h', 'r']], [.lit ['i', 'n', ' '], .ref 1, .lit [' ', 'h', 'o', 'u', 'r']]),
    (.seqs [.lit ['i', 'n', ' '], .grp 1 (.number), .lit [' ', 'm', 'o']], [.lit ['i', 'n', ' '], .ref 1, .lit [' ', 'm', 'o', 'n', 't', 'h']]),
    (.seqs [.lit ['i', 'n', ' '], .grp 1 (.number), .lit [' ', 'w', 'k']], [.lit ['i', 'n', ' '], .ref 1, .lit [' ', 'w', 'e', 'e', 'k']]),
    (.seqs [.lit ['i', 'n', ' '], .grp 1 (.number), .lit [' ', 'y', 'r']], [.lit ['i', 'n', ' '], .ref 1, .lit [' ', 'y', 'e', 'a', 'r']])],
  rxCombined := some (.seqs [.grp 1 (.alts [.bos, .cls true [.letter, .mark, .digit], .lit ['_']]), .grp 2 (.alts [.seqs [.number, .lit [' ', 'd', 'e', 'c', 'a', 'd', 'e'], .opt (.lit ['s']), .lit [' ', 'a', 'g', 'o']], .seqs [.number, .lit [' ', 'm', 'i', 'n', 'u', 't', 'e', 's', ' ', 'a', 'g', 'o']], .seqs [.number, .lit [' ', 's', 'e', 'c', 'o', 'n', 'd', 's', ' ', 'a', 'g', 'o']], .seqs [.lit ['i', 'n', ' '], .number, .lit [' ', 'd', 'e', 'c', 'a', 'd', 'e'], .opt (.lit ['s'])], .seqs [.number, .lit [' ', 'm', 'i', 'n', 'u', 't', 'e', ' ', 'a', 'g', 'o']], .seqs [.number, .lit [' ', 'm', 'o', 'n', 't', 'h', 's', ' ', 'a', 'g', 'o']], .seqs [.number, .lit [' ', 's', 'e', 'c', 'o', 'n', 'd', ' ', 'a', 'g', 'o']], .seqs [.lit ['i', 'n', ' '], .number, .lit [' ', 'm', 'i', 'n', 'u', 't', 'e', 's']], .seqs [.lit ['i', 'n', ' '], .number, .lit [' ', 's', 'e', 'c', 'o', 'n', 'd', 's']], .seqs [.number, .lit [' ', 'h', 'o', 'u', 'r', 's', ' ', 'a', 'g', 'o']], .seqs [.number, .lit [' ', 'm', 'o', 'n', 't', 'h', ' ', 'a', 'g', 'o']], .seqs [.number, .lit [' ', 'w', 'e', 'e', 'k', 's', ' ', 'a', 'g', 'o']], .seqs [.number, .lit [' ', 'y', 'e', 'a', 'r', 's', ' ', 'a', 'g', 'o']], .seqs [.lit ['i', 'n', ' '], .number, .lit [' ', 'm', 'i', 'n', 'u', 't', 'e']], .seqs [.lit ['i', 'n', ' '], .number, .lit [' ', 'm', 'o', 'n', 't', 'h', 's']], .seqs [.lit ['i', 'n', ' '], .number, .lit [' ', 's', 'e', 'c', 'o', 'n', 'd']], .seqs [.number, .lit [' ', 'd', 'a', 'y', 's', ' ', 'a', 'g', 'o']], .seqs [.number, .lit [' ', 'h', 'o', 'u', 'r', ' ', 'a', 'g', 'o']], .seqs [.number, .lit [' ', 'w', 'e', 'e', 'k', ' ', 'a', 'g', 'o']], .seqs [.number, .lit [' ', 'y', 'e', 'a', 'r', ' ', 'a', 'g', 'o']], .seqs [.lit ['i', 'n', ' '], .number, .lit [' ', 'h', 'o', 'u', 'r', 's']], .seqs [.lit ['i', 'n', ' '], .number, .lit [' ', 'm', 'o', 'n', 't', 'h']], .seqs [.lit ['i', 'n', ' '], .number, .lit [' ', 'w', 'e', 'e', 'k', 's']], .seqs [.lit ['i', 'n', ' '], .number, .lit [' ', 'y', 'e', 'a', 'r', 's']], .seqs [.number, .lit [' ', 'd', 'a', 'y', ' ', 'a', 'g', 'o']], .seqs [.number, .lit [' ', 'm', 'i', 'n', ' ', 'a', 'g', 'o']], .seqs [.number, .lit [' ', 's', 'e', 'c', ' ', 'a', 'g', 'o']], .seqs [.lit ['i', 'n', ' '], .number, .lit [' ', 'd', 'a', 'y', 's']], .seqs [.lit ['i', 'n', ' '], .number, .lit [' ', 'h', 'o', 'u', 'r']], .seqs [.lit ['i', 'n', ' '], .number, .lit [' ', 'w', 'e', 'e', 'k']], .seqs [.lit ['i', 'n', ' '], .number, .lit [' ', 'y', 'e', 'a', 'r']], .seqs [.number, .lit [' ', 'h', 'r', ' ', 'a', 'g', 'o']], .seqs [.number, .lit [' ', 'm', 'o', ' ', 'a', 'g', 'o']], .seqs [.number, .lit [' ', 'w', 'k', ' ', 'a', 'g', 'o']], .seqs [.number, .lit [' ', 'y', 'r', ' ', 'a', 'g', 'o']], .seqs [.lit ['i', 'n', ' '], .number, .lit [' ', 'd', 'a', 'y']], .seqs [.lit ['i', 'n', ' '], .number, .lit [' ', 'm', 'i', 'n']], .seqs [.lit ['i', 'n', ' '], .number, .lit [' ', 's', 'e', 'c']], .seqs [.lit ['i', 'n', ' '], .number, .lit [' ', 'h', 'r']], .seqs [.lit ['i', 'n', ' '], .number, .lit [' ', 'm', 'o']], .seqs [.lit ['i', 'n', ' '], .number, .lit [' ', 'w', 'k']], .seqs [.lit ['i', 'n', ' '], .number, .lit [' ', 'y', 'r']]]), .grp 3 (.alts [.eos, .cls true [.letter, .mark, .digit], .lit ['_']])], 3),
  rxExact := some (.seqs [.bos, .grp 1 (.alts [.seqs [.number, .lit [' ', 'd', 'e', 'c', 'a', 'd', 'e'], .opt (.lit ['s']), .lit [' ', 'a', 'g', 'o']], .seqs [.number, .lit [' ', 'm', 'i', 'n', 'u', 't', 'e', 's', ' ', 'a', 'g', 'o']], .seqs [.number, .lit [' ', 's', 'e', 'c', 'o', 'n', 'd', 's', ' ', 'a', 'g', 'o']], .seqs [.lit ['i', 'n', ' '], .number, .lit [' ', 'd', 'e', 'c', 'a', 'd', 'e'], .opt (.lit ['s'])], .seqs [.number, .lit [' ', 'm', 'i', 'n', 'u', 't', 'e', ' ', 'a', 'g', 'o']], .seqs [.number, .lit [' ', 'm', 'o', 'n', 't', 'h', 's', ' ', 'a', 'g', 'o']], .seqs [.number, .lit [' ', 's', 'e', 'c', 'o', 'n', 'd', ' ', 'a', 'g', 'o']], .seqs [.lit ['i', 'n', ' '], .number, .lit [' ', 'm', 'i', 'n', 'u', 't', 'e', 's']], .seqs [.lit ['i', 'n', ' '], .number, .lit [' ', 's', 'e', 'c', 'o', 'n', 'd', 's']], .seqs [.number, .lit [' ', 'h', 'o', 'u', 'r', 's', ' ', 'a', 'g', 'o']], .seqs [.number, .lit [' ', 'm', 'o', 'n', 't', 'h', ' ', 'a', 'g', 'o']], .seqs [.number, .lit [' ', 'w', 'e', 'e', 'k', 's', ' ', 'a', 'g', 'o']], .seqs [.number, .lit [' ', 'y', 'e', 'a', 'r', 's', ' ', 'a', 'g', 'o']], .seqs [.lit ['i', 'n', ' '], .number, .lit [' ', 'm', 'i', 'n', 'u', 't', 'e']], .seqs [.lit ['i', 'n', ' '], .number, .lit [' ', 'm', 'o', 'n', 't', 'h', 's']], .seqs [.lit ['i', 'n', ' '], .number, .lit [' ', 's', 'e', 'c', 'o', 'n', 'd']], .seqs [.number, .lit [' ', 'd', 'a', 'y', 's', ' ', 'a', 'g', 'o']], .seqs [.number, .lit [' ', 'h', 'o', 'u', 'r', ' ', 'a', 'g', 'o']], .seqs [.number, .lit [' ', 'w', 'e', 'e', 'k', ' ', 'a', 'g', 'o']], .seqs [.number, .lit [' ', 'y', 'e', 'a', 'r', ' ', 'a', 'g', 'o']], .seqs [.lit ['i', 'n', ' '], .number, .lit [' ', 'h', 'o', 'u', 'r', 's']], .seqs [.lit ['i', 'n', ' '], .number, .lit [' ', 'm', 'o', 'n', 't', 'h']], .seqs [.lit ['i', 'n', ' '], .number, .lit [' ', 'w', 'e', 'e', 'k', 's']], .seqs [.lit ['i', 'n', ' '], .number, .lit [' ', 'y', 'e', 'a', 'r', 's']], .seqs [.number, .lit [' ', 'd', 'a', 'y', ' ', 'a', 'g', 'o']], .seqs [.number, .lit [' ', 'm', 'i', 'n', ' ', 'a', 'g', 'o']], .seqs [.number, .lit [' ', 's', 'e', 'c', ' ', 'a', 'g', 'o']], .seqs [.lit ['i', 'n', ' '], .number, .lit [' ', 'd', 'a', 'y', 's']], .seqs [.lit ['i', 'n', ' '], .number, .lit [' ', 'h', 'o', 'u', 'r']], .seqs [.lit ['i', 'n', ' '], .number, .lit [' ', 'w', 'e', 'e', 'k']], .seqs [.lit ['i', 'n', ' '], .number, .lit [' ', 'y', 'e', 'a', 'r']], .seqs [.number, .lit [' ', 'h', 'r', ' ', 'a', 'g', 'o']], .seqs [.number, .lit [' ', 'm', 'o', ' ', 'a', 'g', 'o']], .seqs [.number, .lit [' ', 'w', 'k', ' ', 'a', 'g', 'o']], .seqs [.number, .lit [' ', 'y', 'r', ' ', 'a', 'g', 'o']], .seqs [.lit ['i', 'n', ' '], .number, .lit [' ', 'd', 'a', 'y']], .seqs [.lit ['i', 'n', ' '], .number, .lit [' ', 'm', 'i', 'n']], .seqs [.lit ['i', 'n', ' '], .number, .lit [' ', 's', 'e', 'c']], .seqs [.lit ['i', 'n', ' '], .number, .lit [' ', 'h', 'r']], .seqs [.lit ['i', 'n', ' '], .number, .lit [' ', 'm', 'o']], .seqs [.lit ['i', 'n', ' '], .number, .lit [' ', 'w', 'k']], .seqs [.lit ['i', 'n', ' '], .number, .lit [' ', 'y', 'r']]]), .eos]),
  knownWords :=
   [['d', 'a', 'y', ' ', 'b', 'e', 'f', 'o', 'r', 'e', ' ', 'y', 'e', 's', 't', 'e', 'r', 'd', 'a', 'y'], ['d', 'a', 'y', ' ', 'a', 'f', 't', 'e', 'r', ' ', 't', 'o', 'm', 'o', 'r', 'r', 'o', 'w'], ['l', 'a', 's', 't', ' ', 'd', 'e', 'c', 'a', 'd', 'e'], ['n', 'e', 'x', 't', ' ', 'd', 'e', 'c', 'a', 'd', 'e'], ['t', 'h', 'i', 's', ' ', 'd', 'e', 'c', 'a', 'd', 'e'], ['t', 'h', 'i', 's', ' ', 'm', 'i', 'n', 'u', 't', 'e'], ['l', 'a', 's', 't', ' ', 'm', 'o', 'n', 't', 'h'], ['n', 'e', 'x', 't', ' ', 'm', 'o', 'n', 't', 'h'], ['t', 'h', 'i', 's', ' ', 'm', 'o', 'n', 't', 'h'], ['l', 'a', 's', 't', ' ', 'w', 'e', 'e', 'k'], ['l', 'a', 's', 't', ' ', 'y', 'e', 'a', 'r'], ['n', 'e', 'x', 't', ' ', 'w', 'e', 'e', 'k'], ['n', 'e', 'x', 't', ' ', 'y', 'e', 'a', 'r'], ['s', 'e', 'p', 't', 'e', 'm', 'b', 'e', 'r'], ['t', 'h', 'i', 's', ' ', 'h', 'o', 'u', 'r'], ['t', 'h', 'i', 's', ' ', 'w', 'e', 'e', 'k'], ['t', 'h', 'i', 's', ' ', 'y', 'e', 'a', 'r'], ['t', 'i', 'l', 'l', ' ', 'd', 'a', 't', 'e'], ['w', 'e', 'd', 'n', 'e', 's', 'd', 'a', 'y'], ['y', 'e', 's', 't', 'e', 'r', 'd', 'a', 'y'], ['d', 'e', 'c', 'e', 'm', 'b', 'e', 'r'], ['f', 'e', 'b', 'r', 'u', 'a', 'r', 'y'], ['f', 'r', 'o', 'm', ' ', 'n', 'o', 'w'], ['n', 'o', 'v', 'e', 'm', 'b', 'e', 'r'], ['s', 'a', 't', 'u', 'r', 'd', 'a', 'y'], ['t', 'h', 'u', 'r', 's', 'd', 'a', 'y'], ['t', 'o', 'm', 'o', 'r', 'r', 'o', 'w'], ['d', 'e', 'c', 'a', 'd', 'e', 's'], ['j', 'a', 'n', 'u', 'a', 'r', 'y'], ['l', 'a', 's', 't', ' ', 'm', 'o'], ['l', 'a', 's', 't', ' ', 'w', 'k'], ['l', 'a', 's', 't', ' ', 'y', 'r'], ['m', 'i', 'n', 'u', 't', 'e', 's'], ['n', 'e', 'x', 't', ' ', 'm', 'o'], ['n', 'e', 'x', 't', ' ', 'w', 'k'], ['n', 'e', 'x', 't', ' ', 'y', 'r'], ['o', 'c', 't', 'o', 'b', 'e', 'r'], ['s', 'e', 'c', 'o', 'n', 'd', 's'], ['t', 'h', 'i', 's', ' ', 'm', 'o'], ['t', 'h', 'i', 's', ' ', 'w', 'k'], ['t', 'h', 'i', 's', ' ', 'y', 'r'], ['t', 'u', 'e', 's', 'd', 'a', 'y'], ['a', 'u', 'g', 'u', 's', 't'], ['b', 'e', 'f', 'o', 'r', 'e'], ['d', 'e', 'c', 'a', 'd', 'e'], ['f', 'r', 'i', 'd', 'a', 'y'], ['m', 'i', 'n', 'u', 't', 'e'], ['m', 'o', 'n', 'd', 'a', 'y'], ['m', 'o', 'n', 't', 'h', 's'], ['s', 'e', 'c', 'o', 'n', 'd'], ['s', 'u', 'n', 'd', 'a', 'y'], ['a', 'b', 'o', 'u', 't'], ['a', 'f', 't', 'e', 'r'], ['a', 'p', 'r', 'i', 'l'], ['h', 'o', 'u', 'r', 's'], ['m', 'a', 'r', 'c', 'h'], ['m', 'o', 'n', 't', 'h'], ['t', 'o', 'd', 'a', 'y'], ['w', 'e', 'e', 'k', 's'], ['y', 'e', 'a', 'r', 's'], ['d', 'a', 'y', 's'], ['h', 'o', 'u', 'r'], ['j', 'u', 'l', 'y'], ['j', 'u', 'n', 'e'], ['j', 'u', 's', 't'], ['m', 'i', 'n', 's'], ['s', 'e', 'c', 's'], ['s', 'e', 'p', 't'], ['t', 'u', 'e', 's'], ['w', 'e', 'e', 'k'], ['y', 'e', 'a', 'r'], ['a', 'g', 'o'], ['a', 'n', 'd'], ['a', 'p', 'r'], ['a', 'u', 'g'], ['d', 'a', 'y'], ['d', 'e', 'c'], ['f', 'e', 'b'], ['f', 'r', 'i'], ['g', 'm', 't'], ['h', 'r', 's'], ['j', 'a', 'n'], ['j', 'u', 'l'], ['j', 'u', 'n'], ['m', 'a', 'r'], ['m', 'a', 'y'], ['m', 'i', 'n'], ['m', 'o', 'n'], ['n', 'o', 'v'], ['n', 'o', 'w'], ['o', 'c', 't'], ['s', 'a', 't'], ['s', 'e', 'c'], ['s', 'e', 'p'], ['s', 'u', 'n'], ['t', 'h', 'e'], ['t', 'h', 'u'], ['t', 'u', 'e'], ['u', 't', 'c'], ['w', 'e', 'd'], ['a', 'd'], ['a', 'm'], ['a', 't'], ['b', 'y'], ['h', 'r'], ['i', 'n'], ['m', 'o'], ['n', 'd'], ['o', 'f'], ['o', 'n'], ['p', 'm'], ['r', 'd'], ['s', 't'], ['t', 'h'], ['w', 'k'], ['y', 'r'], [' '], ['\''], ['+'], [','], ['-'], ['.'], ['/'], [':'], [';'], ['@'], ['['], [']'], ['d'], ['h'], ['m'], ['s'], ['y'], ['z'], ['|']] }

/-- internal/data/en.go: `en_001_Locale`. -/
def en_001Lang : LangData := en_001Dict

/-- internal/data/en.go: `en_150_Locale`. -/
def en_150Lang : LangData := en_150Dict

/-- internal/data/en.go: `en_AG_Locale`. -/
def en_AGLang : LangData := en_AGDict

/-- internal/data/en.go: `en_AI_Locale`. -/
def en_AILang : LangData := en_AIDict

/-- internal/data/en.go: `en_AS_Locale`. -/
def en_ASLang : LangData := en_ASDict

/-- internal/data/en.go: `en_AT_Locale`. -/
def en_ATLang : LangData := en_ATDict

/-- internal/data/en.go: `en_AU_Locale`. -/
def en_AULang : LangData := en_AUDict

/-- internal/data/en.go: `en_BB_Locale`. -/
def en_BBLang : LangData := en_BBDict

/-- internal/data/en.go: `en_BE_Locale`. -/
def en_BELang : LangData := en_BEDict

/-- internal/data/en.go: `en_BI_Locale`. -/
def en_BILang : LangData := en_BIDict

/-- internal/data/en.go: `en_BM_Locale`. -/
def en_BMLang : LangData := en_BMDict

/-- internal/data/en.go: `en_BS_Locale`. -/
def en_BSLang : LangData := en_BSDict

/-- internal/data/en.go: `en_BW_Locale`. -/
def en_BWLang : LangData := en_BWDict

/-- internal/data/en.go: `en_BZ_Locale`. -/
def en_BZLang : LangData := en_BZDict

/-- internal/data/en.go: `en_CA_Locale`. -/
def en_CALang : LangData := { en_CADict with
  relativeRegexes :=
   [(.seqs [.grp 1 (.number), .lit [' ', 'm', 'i', 'n', 's', ' ', 'a', 'g', 'o']], [.ref 1, .lit [' ', 'm', 'i', 'n', 'u', 't', 'e', ' ', 'a', 'g', 'o']]),
    (.seqs [.grp 1 (.number), .lit [' ', 's', 'e', 'c', 's', ' ', 'a', 'g', 'o']], [.ref 1, .lit [' ', 's', 'e', 'c', 'o', 'n', 'd', ' ', 'a', 'g', 'o']]),
    (.seqs [.grp 1 (.number), .lit [' ', 'h', 'r', 's', ' ', 'a', 'g', 'o']], [.ref 1, .lit [' ', 'h', 'o', 'u', 'r', ' ', 'a', 'g', 'o']]),
    (.seqs [.grp 1 (.number), .lit [' ', 'm', 'o', 's', ' ', 'a', 'g', 'o']], [.ref 1, .lit [' ', 'm', 'o', 'n', 't', 'h', ' ', 'a', 'g', 'o']]),
    (.seqs [.grp 1 (.number), .lit [' ', 'w', 'k', 's', ' ', 'a', 'g', 'o']], [.ref 1, .lit [' ', 'w', 'e', 'e', 'k', ' ', 'a', 'g', 'o']]),
    (.seqs [.grp 1 (.number), .lit [' ', 'y', 'r', 's', ' ', 'a', 'g', 'o']], [.ref 1, .lit [' ', 'y', 'e', 'a', 'r', ' ', 'a', 'g', 'o']]),
    (.seqs [.lit ['i', 'n', ' '], .grp 1 (.number), .lit [' ', 'm', 'i', 'n', 's']], [.lit ['i', 'n', ' '], .ref 1, .lit [' ', 'm', 'i', 'n', 'u', 't', 'e']]),
    (.seqs [.lit ['i', 'n', ' '], .grp 1 (.number), .lit [' ', 's', 'e', 'c', 's']], [.lit ['i', 'n', ' '], .ref 1, .lit [' ', 's', 'e', 'c', 'o', 'n', 'd']]),
    (.seqs [.lit ['i', 'n', ' '], .grp 1 (.number), .lit [' ', 'h', 'r', 's']], [.lit ['i', 'n', ' '], .ref 1, .lit [' ', 'h', 'o', 'u', 'r']]),
    (.seqs [.lit ['i', 'n', ' '], .grp 1 (.number), .lit [' ', 'm', 'o', 's']], [.lit ['i', 'n', ' '], .ref 1, .lit [' ', 'm', 'o', 'n', 't', 'h']]),
    (.seqs [.lit ['i', 'n', ' '], .grp 1 (.number), .lit [' ', 'w', 'k', 's']], [.lit ['i', 'n', ' '], .ref 1, .lit [' ', 'w', 'e', 'e', 'k']]),
    (.seqs [.lit ['i', 'n', ' '], .grp 1 (.number), .lit [' ', 'y', 'r', 's']], [.lit ['i', 'n', ' '], .ref 1, .lit [' ', 'y', 'e', 'a', 'r']])],
  rxCombined := some (.seqs [.grp 1 (.alts [.bos, .cls true [.letter, .mark, .digit], .lit ['_']]), .grp 2 (.alts [.seqs [.number, .lit [' ', 'd', 'e', 'c', 'a', 'd', 'e'], .opt (.lit ['s']), .lit [' ', 'a', 'g', 'o']], .seqs [.number, .lit [' ', 'm', 'i', 'n', 'u', 't', 'e', 's', ' ', 'a', 'g', 'o']], .seqs [.number, .lit [' ', 's', 'e', 'c', 'o', 'n', 'd', 's', ' ', 'a', 'g', 'o']], .seqs [.lit ['i', 'n', ' '], .number, .lit [' ', 'd', 'e', 'c', 'a', 'd', 'e'], .opt (.lit ['s'])], .seqs [.number, .lit [' ', 'm', 'i', 'n', 'u', 't', 'e', ' ', 'a', 'g', 'o']], .seqs [.number, .lit [' ', 'm', 'o', 'n', 't', 'h', 's', ' ', 'a', 'g', 'o']], .seqs [.number, .lit [' ', 's', 'e', 'c', 'o', 'n', 'd', ' ', 'a', 'g', 'o']], .seqs [.lit ['i', 'n', ' '], .number, .lit [' ', 'm', 'i', 'n', 'u', 't', 'e', 's']], .seqs [.lit ['i', 'n', ' '], .number, .lit [' ', 's', 'e', 'c', 'o', 'n', 'd', 's']], .seqs [.number, .lit [' ', 'h', 'o', 'u', 'r', 's', ' ', 'a', 'g', 'o']], .seqs [.number, .lit [' ', 'm', 'o', 'n', 't', 'h', ' ', 'a', 'g', 'o']], .seqs [.number, .lit [' ', 'w', 'e', 'e', 'k', 's', ' ', 'a', 'g', 'o']], .seqs [.number, .lit [' ', 'y', 'e', 'a', 'r', 's', ' ', 'a', 'g', 'o']], .seqs [.lit ['i', 'n', ' '], .number, .lit [' ', 'm', 'i', 'n', 'u', 't', 'e']], .seqs [.lit ['i', 'n', ' '], .number, .lit [' ', 'm', 'o', 'n', 't', 'h', 's']], .seqs [.lit ['i', 'n', ' '], .number, .lit [' ', 's', 'e', 'c', 'o', 'n', 'd']], .seqs [.number, .lit [' ', 'd', 'a', 'y', 's', ' ', 'a', 'g', 'o']], .seqs [.number, .lit [' ', 'h', 'o', 'u', 'r', ' ', 'a', 'g', 'o']], .seqs [.number, .lit [' ', 'm', 'i', 'n', 's', ' ', 'a', 'g', 'o']], .seqs [.number, .lit [' ', 's', 'e', 'c', 's', ' ', 'a', 'g', 'o']], .seqs [.number, .lit [' ', 'w', 'e', 'e', 'k', ' ', 'a', 'g', 'o']], .seqs [.number, .lit [' ', 'y', 'e', 'a', 'r', ' ', 'a', 'g', 'o']], .seqs [.lit ['i', 'n', ' '], .number, .lit [' ', 'h', 'o', 'u', 'r', 's']], .seqs [.lit ['i', 'n', ' '], .number, .lit [' ', 'm', 'o', 'n', 't', 'h']], .seqs [.lit ['i', 'n', ' '], .number, .lit [' ', 'w', 'e', 'e', 'k', 's']], .seqs [.lit ['i', 'n', ' '], .number, .lit [' ', 'y', 'e', 'a', 'r', 's']], .seqs [.number, .lit [' ', 'd', 'a', 'y', ' ', 'a', 'g', 'o']], .seqs [.number, .lit [' ', 'h', 'r', 's', ' ', 'a', 'g', 'o']], .seqs [.number, .lit [' ', 'm', 'i', 'n', ' ', 'a', 'g', 'o']], .seqs [.number, .lit [' ', 'm', 'o', 's', ' ', 'a', 'g', 'o']], .seqs [.number, .lit [' ', 's', 'e', 'c', ' ', 'a', 'g', 'o']], .seqs [.number, .lit [' ', 'w', 'k', 's', ' ', 'a', 'g', 'o']], .seqs [.number, .lit [' ', 'y', 'r', 's', ' ', 'a', 'g', 'o']], .seqs [.lit ['i', 'n', ' '], .number, .lit [' ', 'd', 'a', 'y', 's']], .seqs [.lit ['i', 'n', ' '], .number, .lit [' ', 'h', 'o', 'u', 'r']], .seqs [.lit ['i', 'n', ' '], .number, .lit [' ', 'm', 'i', 'n', 's']], .seqs [.lit ['i', 'n', ' '], .number, .lit [' ', 's', 'e', 'c', 's']], .seqs [.lit ['i', 'n', ' '], .number, .lit [' ', 'w', 'e', 'e', 'k']], .seqs [.lit ['i', 'n', ' '], .number, .lit [' ', 'y', 'e', 'a', 'r']], .seqs [.number, .lit [' ', 'h', 'r', ' ', 'a', 'g', 'o']], .seqs [.number, .lit [' ', 'm', 'o', ' ', 'a', 'g', 'o']], .seqs [.number, .lit [' ', 'w', 'k', ' ', 'a', 'g', 'o']], .seqs [.number, .lit [' ', 'y', 'r', ' ', 'a', 'g', 'o']], .seqs [.lit ['i', 'n', ' '], .number, .lit [' ', 'd', 'a', 'y']], .seqs [.lit ['i', 'n', ' '], .number, .lit [' ', 'h', 'r', 's']], .seqs [.lit ['i', 'n', ' '], .number, .lit [' ', 'm', 'i', 'n']], .seqs [.lit ['i', 'n', ' '], .number, .lit [' ', 'm', 'o', 's']], .seqs [.lit ['i', 'n', ' '], .number, .lit [' ', 's', 'e', 'c']], .seqs [.lit ['i', 'n', ' '], .number, .lit [' ', 'w', 'k', 's']], .seqs [.lit ['i', 'n', ' '], .number, .lit [' ', 'y', 'r', 's']], .seqs [.lit ['i', 'n', ' '], .number, .lit [' ', 'h', 'r']], .seqs [.lit ['i', 'n', ' '], .number, .lit [' ', 'm', 'o']], .seqs [.lit ['i', 'n', ' '], .number, .lit [' ', 'w', 'k']], .seqs [.lit ['i', 'n', ' '], .number, .lit [' ', 'y', 'r']]]), .grp 3 (.alts [.eos, .cls true [.letter, .mark, .digit], .lit ['_']])], 3),
  rxExact := some (.seqs [.bos, .grp 1 (.alts [.seqs [.number, .lit [' ', 'd', 'e', 'c', 'a', 'd', 'e'], .opt (.lit ['s']), .lit [' ', 'a', 'g', 'o']], .seqs [.number, .lit [' ', 'm', 'i', 'n', 'u', 't', 'e', 's', ' ', 'a', 'g', 'o']], .seqs [.number, .lit [' ', 's', 'e', 'c', 'o', 'n', 'd', 's', ' ', 'a', 'g', 'o']], .seqs [.lit ['i', 'n', ' '], .number, .lit [' ', 'd', 'e', 'c', 'a', 'd', 'e'], .opt (.lit ['s'])], .seqs [.number, .lit [' ', 'm', 'i', 'n', 'u', 't', 'e', ' ', 'a', 'g', 'o']], .seqs [.number, .lit [' ', 'm', 'o', 'n', 't', 'h', 's', ' ', 'a', 'g', 'o']], .seqs [.number, .lit [' ', 's', 'e', 'c', 'o', 'n', 'd', ' ', 'a', 'g', 'o']], .seqs [.lit ['i', 'n', ' '], .number, .lit [' ', 'm', 'i', 'n', 'u', 't', 'e', 's']], .seqs [.lit ['i', 'n', ' '], .number, .lit [' ', 's', 'e', 'c', 'o', 'n', 'd', 's']], .seqs [.number, .lit [' ', 'h', 'o', 'u', 'r', 's', ' ', 'a', 'g', 'o']], .seqs [.number, .lit [' ', 'm', 'o', 'n', 't', 'h', ' ', 'a', 'g', 'o']], .seqs [.number, .lit [' ', 'w', 'e', 'e', 'k', 's', ' ', 'a', 'g', 'o']], .seqs [.number, .lit [' ', 'y', 'e', 'a', 'r', 's', ' ', 'a', 'g', 'o']], .seqs [.lit ['i', 'n', ' '], .number, .lit [' ', 'm', 'i', 'n', 'u', 't', 'e']], .seqs [.lit ['i', 'n', ' '], .number, .lit [' ', 'm', 'o', 'n', 't', 'h', 's']], .seqs [.lit ['i', 'n', ' '], .number, .lit [' ', 's', 'e', 'c', 'o', 'n', 'd']], .seqs [.number, .lit [' ', 'd', 'a', 'y', 's', ' ', 'a', 'g', 'o']], .seqs [.number, .lit [' ', 'h', 'o', 'u', 'r', ' ', 'a', 'g', 'o']], .seqs [.number, .lit [' ', 'm', 'i', 'n', 's', ' ', 'a', 'g', 'o']], .seqs [.number, .lit [' ', 's', 'e', 'c', 's', ' ', 'a', 'g', 'o']], .seqs [.number, .lit [' ', 'w', 'e', 'e', 'k', ' ', 'a', 'g', 'o']], .seqs [.number, .lit [' ', 'y', 'e', 'a', 'r', ' ', 'a', 'g', 'o']], .seqs [.lit ['i', 'n', ' '], .number, .lit [' ', 'h', 'o', 'u', 'r', 's']], .seqs [.lit ['i', 'n', ' '], .number, .lit [' ', 'm', 'o', 'n', 't', 'h']], .seqs [.lit ['i', 'n', ' '], .number, .lit [' ', 'w', 'e', 'e', 'k', 's']], .seqs [.lit ['i', 'n', ' '], .number, .lit [' ', 'y', 'e', 'a', 'r', 's']], .seqs [.number, .lit [' ', 'd', 'a', 'y', ' ', 'a', 'g', 'o']], .seqs [.number, .lit [' ', 'h', 'r', 's', ' ', 'a', 'g', 'o']], .seqs [.number, .lit [' ', 'm', 'i', 'n', ' ', 'a', 'g', 'o']], .seqs [.number, .lit [' ', 'm', 'o', 's', ' ', 'a', 'g', 'o']], .seqs [.number, .lit [' ', 's', 'e', 'c', ' ', 'a', 'g', 'o']], .seqs [.number, .lit [' ', 'w', 'k', 's', ' ', 'a', 'g', 'o']], .seqs [.number, .lit [' ', 'y', 'r', 's', ' ', 'a', 'g', 'o']], .seqs [.lit ['i', 'n', ' '], .number, .lit [' ', 'd', 'a', 'y', 's']], .seqs [.lit ['i', 'n', ' '], .number, .lit [' ', 'h', 'o', 'u', 'r']], .seqs [.lit ['i', 'n', ' '], .number, .lit [' ', 'm', 'i', 'n', 's']], .seqs [.lit ['i', 'n', ' '], .number, .lit [' ', 's', 'e', 'c', 's']], .seqs [.lit ['i', 'n', ' '], .number, .lit [' ', 'w', 'e', 'e', 'k']], .seqs [.lit ['i', 'n', ' '], .number, .lit [' ', 'y', 'e', 'a', 'r']], .seqs [.number, .lit [' ', 'h', 'r', ' ', 'a', 'g', 'o']], .seqs [.number, .lit [' ', 'm', 'o', ' ', 'a', 'g', 'o']], .seqs [.number, .lit [' ', 'w', 'k', ' ', 'a', 'g', 'o']], .seqs [.number, .lit [' ', 'y', 'r', ' ', 'a', 'g', 'o']], .seqs [.lit ['i', 'n', ' '], .number, .lit [' ', 'd', 'a', 'y']], .seqs [.lit ['i', 'n', ' '], .number, .lit [' ', 'h', 'r', 's']], .seqs [.lit ['i', 'n', ' '], .number, .lit [' ', 'm', 'i', 'n']], .seqs [.lit ['i', 'n', ' '], .number, .lit [' ', 'm', 'o', 's']], .seqs [.lit ['i', 'n', ' '], .number, .lit [' ', 's', 'e', 'c']], .seqs [.lit ['i', 'n', ' '], .number, .lit [' ', 'w', 'k', 's']], .seqs [.lit ['i', 'n', ' '], .number, .lit [' ', 'y', 'r', 's']], .seqs [.lit ['i', 'n', ' '], .number, .lit [' ', 'h', 'r']], .seqs [.lit ['i', 'n', ' '], .number, .lit [' ', 'm', 'o']], .seqs [.lit ['i', 'n', ' '], .number, .lit [' ', 'w', 'k']], .seqs [.lit ['i', 'n', ' '], .number, .lit [' ', 'y', 'r']]]), .eos]) }

/-- internal/data/en.go: `en_CC_Locale`. -/
def en_CCLang : LangData := en_CCDict

/-- internal/data/en.go: `en_CH_Locale`. -/
def en_CHLang : LangData := en_CHDict

/-- internal/data/en.go: `en_CK_Locale`. -/
def en_CKLang : LangData := en_CKDict

/-- internal/data/en.go: `en_CM_Locale`. -/
def en_CMLang : LangData := en_CMDict

/-- internal/data/en.go: `en_CX_Locale`. -/
def en_CXLang : LangData := en_CXDict

/-- internal/data/en.go: `en_CY_Locale`. -/
def en_CYLang : LangData := en_CYDict

/-- internal/data/en.go: `en_DE_Locale`. -/
def en_DELang : LangData := en_DEDict

/-- internal/data/en.go: `en_DG_Locale`. -/
def en_DGLang : LangData := en_DGDict

/-- internal/data/en.go: `en_DK_Locale`. -/
def en_DKLang : LangData := en_DKDict

/-- internal/data/en.go: `en_DM_Locale`. -/
def en_DMLang : LangData := en_DMDict

/-- internal/data/en.go: `en_ER_Locale`. -/
def en_ERLang : LangData := en_ERDict

/-- internal/data/en.go: `en_FI_Locale`. -/
def en_FILang : LangData := en_FIDict

/-- internal/data/en.go: `en_FJ_Locale`. -/
def en_FJLang : LangData := en_FJDict

/-- internal/data/en.go: `en_FK_Locale`. -/
def en_FKLang : LangData := en_FKDict

/-- internal/data/en.go: `en_FM_Locale`. -/
def en_FMLang : LangData := en_FMDict

/-- internal/data/en.go: `en_GB_Locale`. -/
def en_GBLang : LangData := en_GBDict

/-- internal/data/en.go: `en_GD_Locale`. -/
def en_GDLang : LangData := en_GDDict

/-- internal/data/en.go: `en_GG_Locale`. -/
def en_GGLang : LangData := en_GGDict

/-- internal/data/en.go: `en_GH_Locale`. -/
def en_GHLang : LangData := en_GHDict

/-- internal/data/en.go: `en_GI_Locale`. -/
def en_GILang : LangData := en_GIDict

/-- internal/data/en.go: `en_GM_Locale`. -/
def en_GMLang : LangData := en_GMDict

/-- internal/data/en.go: `en_GU_Locale`. -/
def en_GULang : LangData := en_GUDict

/-- internal/data/en.go: `en_GY_Locale`. -/
def en_GYLang : LangData := en_GYDict

/-- internal/data/en.go: `en_HK_Locale`. -/
def en_HKLang : LangData := en_HKDict

/-- internal/data/en.go: `en_IE_Locale`. -/
def en_IELang : LangData := en_IEDict

/-- internal/data/en.go: `en_IL_Locale`. -/
def en_ILLang : LangData := en_ILDict

/-- internal/data/en.go: `en_IM_Locale`. -/
def en_IMLang : LangData := en_IMDict

/-- internal/data/en.go: `en_IN_Locale`. -/
def en_INLang : LangData := en_INDict

/-- internal/data/en.go: `en_IO_Locale`. -/
def en_IOLang : LangData := en_IODict

/-- internal/data/en.go: `en_JE_Locale`. -/
def en_JELang : LangData := en_JEDict

/-- internal/data/en.go: `en_JM_Locale`. -/
def en_JMLang : LangData := en_JMDict

/-- internal/data/en.go: `en_KE_Locale`. -/
def en_KELang : LangData := en_KEDict

/-- internal/data/en.go: `en_KI_Locale`. -/
def en_KILang : LangData := en_KIDict

/-- internal/data/en.go: `en_KN_Locale`. -/
def en_KNLang : LangData := en_KNDict

/-- internal/data/en.go: `en_KY_Locale`. -/
def en_KYLang : LangData := en_KYDict

/-- internal/data/en.go: `en_LC_Locale`. -/
def en_LCLang : LangData := en_LCDict

/-- internal/data/en.go: `en_LR_Locale`. -/
def en_LRLang : LangData := en_LRDict

/-- internal/data/en.go: `en_LS_Locale`. -/
def en_LSLang : LangData := en_LSDict

/-- internal/data/en.go: `en_MG_Locale`. -/
def en_MGLang : LangData := en_MGDict

/-- internal/data/en.go: `en_MH_Locale`. -/
def en_MHLang : LangData := en_MHDict

/-- internal/data/en.go: `en_MO_Locale`. -/
def en_MOLang : LangData := en_MODict

/-- internal/data/en.go: `en_MP_Locale`. -/
def en_MPLang : LangData := en_MPDict

/-- internal/data/en.go: `en_MS_Locale`. -/
def en_MSLang : LangData := en_MSDict

/-- internal/data/en.go: `en_MT_Locale`. -/
def en_MTLang : LangData := en_MTDict

/-- internal/data/en.go: `en_MU_Locale`. -/
def en_MULang : LangData := en_MUDict

/-- internal/data/en.go: `en_MW_Locale`. -/
def en_MWLang : LangData := en_MWDict

/-- internal/data/en.go: `en_MY_Locale`. -/
def en_MYLang : LangData := en_MYDict

/-- internal/data/en.go: `en_NA_Locale`. -/
def en_NALang : LangData := en_NADict

/-- internal/data/en.go: `en_NF_Locale`. -/
def en_NFLang : LangData := en_NFDict

/-- internal/data/en.go: `en_NG_Locale`. -/
def en_NGLang : LangData := en_NGDict

/-- internal/data/en.go: `en_NL_Locale`. -/
def en_NLLang : LangData := en_NLDict

/-- internal/data/en.go: `en_NR_Locale`. -/
def en_NRLang : LangData := en_NRDict

/-- internal/data/en.go: `en_NU_Locale`. -/
def en_NULang : LangData := en_NUDict

/-- internal/data/en.go: `en_NZ_Locale`. -/
def en_NZLang : LangData := en_NZDict

/-- internal/data/en.go: `en_PG_Locale`. -/
def en_PGLang : LangData := en_PGDict

/-- internal/data/en.go: `en_PH_Locale`. -/
def en_PHLang : LangData := en_PHDict

/-- internal/data/en.go: `en_PK_Locale`. -/
def en_PKLang : LangData := en_PKDict

/-- internal/data/en.go: `en_PN_Locale`. -/
def en_PNLang : LangData := en_PNDict

/-- internal/data/en.go: `en_PR_Locale`. -/
def en_PRLang : LangData := en_PRDict

/-- internal/data/en.go: `en_PW_Locale`. -/
def en_PWLang : LangData := en_PWDict

/-- internal/data/en.go: `en_RW_Locale`. -/
def en_RWLang : LangData := en_RWDict

/-- internal/data/en.go: `en_SB_Locale`. -/
def en_SBLang : LangData := en_SBDict

/-- internal/data/en.go: `en_SC_Locale`. -/
def en_SCLang : LangData := en_SCDict

/-- internal/data/en.go: `en_SD_Locale`. -/
def en_SDLang : LangData := en_SDDict

/-- internal/data/en.go: `en_SE_Locale`. -/
def en_SELang : LangData := en_SEDict

/-- internal/data/en.go: `en_SG_Locale`. -/
def en_SGLang : LangData := { en_SGDict with
  relativeRegexes :=
   [(.seqs [.grp 1 (.number), .lit [' ', 'm', 't', 'h', ' ', 'a', 'g', 'o']], [.ref 1, .lit [' ', 'm', 'o', 'n', 't', 'h', ' ', 'a', 'g', 'o']]),
    (.seqs [.lit ['i', 'n', ' '], .grp 1 (.number), .lit [' ', 'm', 't', 'h']], [.lit ['i', 'n', ' '], .ref 1, .lit [' ', 'm', 'o', 'n', 't', 'h']])],
  rxCombined := some (.seqs [.grp 1 (.alts [.bos, .cls true [.letter, .mark, .digit], .lit ['_']]), .grp 2 (.alts [.seqs [.number, .lit [' ', 'd', 'e', 'c', 'a', 'd', 'e'], .opt (.lit ['s']), .lit [' ', 'a', 'g', 'o']], .seqs [.number, .lit [' ', 'm', 'i', 'n', 'u', 't', 'e', 's', ' ', 'a', 'g', 'o']], .seqs [.number, .lit [' ', 's', 'e', 'c', 'o', 'n', 'd', 's', ' ', 'a', 'g', 'o']], .seqs [.lit ['i', 'n', ' '], .number, .lit [' ', 'd', 'e', 'c', 'a', 'd', 'e'], .opt (.lit ['s'])], .seqs [.number, .lit [' ', 'm', 'i', 'n', 'u', 't', 'e', ' ', 'a', 'g', 'o']], .seqs [.number, .lit [' ', 'm', 'o', 'n', 't', 'h', 's', ' ', 'a', 'g', 'o']], .seqs [.number, .lit [' ', 's', 'e', 'c', 'o', 'n', 'd', ' ', 'a', 'g', 'o']], .seqs [.lit ['i', 'n', ' '], .number, .lit [' ', 'm', 'i', 'n', 'u', 't', 'e', 's']], .seqs [.lit ['i', 'n', ' '], .number, .lit [' ', 's', 'e', 'c', 'o', 'n', 'd', 's']], .seqs [.number, .lit [' ', 'h', 'o', 'u', 'r', 's', ' ', 'a', 'g', 'o']], .seqs [.number, .lit [' ', 'm', 'o', 'n', 't', 'h', ' ', 'a', 'g', 'o']], .seqs [.number, .lit [' ', 'w', 'e', 'e', 'k', 's', ' ', 'a', 'g', 'o']], .seqs [.number, .lit [' ', 'y', 'e', 'a', 'r', 's', ' ', 'a', 'g', 'o']], .seqs [.lit ['i', 'n', ' '], .number, .lit [' ', 'm', 'i', 'n', 'u', 't', 'e']], .seqs [.lit ['i', 'n', ' '], .number, .lit [' ', 'm', 'o', 'n', 't', 'h', 's']], .seqs [.lit ['i', 'n', ' '], .number, .lit [' ', 's', 'e', 'c', 'o', 'n', 'd']], .seqs [.number, .lit [' ', 'd', 'a', 'y', 's', ' ', 'a', 'g', 'o']], .seqs [.number, .lit [' ', 'h', 'o', 'u', 'r', ' ', 'a', 'g', 'o']], .seqs [.number, .lit [' ', 'w', 'e', 'e', 'k', ' ', 'a', 'g', 'o']], .seqs [.number, .lit [' ', 'y', 'e', 'a', 'r', ' ', 'a', 'g', 'o']], .seqs [.lit ['i', 'n', ' '], .number, .lit [' ', 'h', 'o', 'u', 'r', 's']], .seqs [.lit ['i', 'n', ' '], .number, .lit [' ', 'm', 'o', 'n', 't', 'h']], .seqs [.lit ['i', 'n', ' '], .number, .lit [' ', 'w', 'e', 'e', 'k', 's']], .seqs [.lit ['i', 'n', ' '], .number, .lit [' ', 'y', 'e', 'a', 'r', 's']], .seqs [.number, .lit [' ', 'd', 'a', 'y', ' ', 'a', 'g', 'o']], .seqs [.number, .lit [' ', 'm', 'i', 'n', ' ', 'a', 'g', 'o']], .seqs [.number, .lit [' ', 'm', 't', 'h', ' ', 'a', 'g', 'o']], .seqs [.number, .lit [' ', 's', 'e', 'c', ' ', 'a', 'g', 'o']], .seqs [.lit ['i', 'n', ' '], .number, .lit [' ', 'd', 'a', 'y', 's']], .seqs [.lit ['i', 'n', ' '], .number, .lit [' ', 'h', 'o', 'u', 'r']], .seqs [.lit ['i', 'n', ' '], .number, .lit [' ', 'w', 'e', 'e', 'k']], .seqs [.lit ['i', 'n', ' '], .number, .lit [' ', 'y', 'e', 'a', 'r']], .seqs [.number, .lit [' ', 'h', 'r', ' ', 'a', 'g', 'o']], .seqs [.number, .lit [' ', 'm', 'o', ' ', 'a', 'g', 'o']], .seqs [.number, .lit [' ', 'w', 'k', ' ', 'a', 'g', 'o']], .seqs [.number, .lit [' ', 'y', 'r', ' ', 'a', 'g', 'o']], .seqs [.lit ['i', 'n', ' '], .number, .lit [' ', 'd', 'a', 'y']], .seqs [.lit ['i', 'n', ' '], .number, .lit [' ', 'm', 'i', 'n']], .seqs [.lit ['i', 'n', ' '], .number, .lit [' ', 'm', 't', 'h']], .seqs [.lit ['i', 'n', ' '], .number, .lit [' ', 's', 'e', 'c']], .seqs [.lit ['i', 'n', ' '], .number, .lit [' ', 'h', 'r']], .seqs [.lit ['i', 'n', ' '], .number, .lit [' ', 'm', 'o']], .seqs [.lit ['i', 'n', ' '], .number, .lit [' ', 'w', 'k']], .seqs [.lit ['i', 'n', ' '], .number, .lit [' ', 'y', 'r']]]), .grp 3 (.alts [.eos, .cls true [.letter, .mark, .digit], .lit ['_']])], 3),
  rxExact := some (.seqs [.bos, .grp 1 (.alts [.seqs [.number, .lit [' ', 'd', 'e', 'c', 'a', 'd', 'e'], .opt (.lit ['s']), .lit [' ', 'a', 'g', 'o']], .seqs [.number, .lit [' ', 'm', 'i', 'n', 'u', 't', 'e', 's', ' ', 'a', 'g', 'o']], .seqs [.number, .lit [' ', 's', 'e', 'c', 'o', 'n', 'd', 's', ' ', 'a', 'g', 'o']], .seqs [.lit ['i', 'n', ' '], .number, .lit [' ', 'd', 'e', 'c', 'a', 'd', 'e'], .opt (.lit ['s'])], .seqs [.number, .lit [' ', 'm', 'i', 'n', 'u', 't', 'e', ' ', 'a', 'g', 'o']], .seqs [.number, .lit [' ', 'm', 'o', 'n', 't', 'h', 's', ' ', 'a', 'g', 'o']], .seqs [.number, .lit [' ', 's', 'e', 'c', 'o', 'n', 'd', ' ', 'a', 'g', 'o']], .seqs [.lit ['i', 'n', ' '], .number, .lit [' ', 'm', 'i', 'n', 'u', 't', 'e', 's']], .seqs [.lit ['i', 'n', ' '], .number, .lit [' ', 's', 'e', 'c', 'o', 'n', 'd', 's']], .seqs [.number, .lit [' ', 'h', 'o', 'u', 'r', 's', ' ', 'a', 'g', 'o']], .seqs [.number, .lit [' ', 'm', 'o', 'n', 't', 'h', ' ', 'a', 'g', 'o']], .seqs [.number, .lit [' ', 'w', 'e', 'e', 'k', 's', ' ', 'a', 'g', 'o']], .seqs [.number, .lit [' ', 'y', 'e', 'a', 'r', 's', ' ', 'a', 'g', 'o']], .seqs [.lit ['i', 'n', ' '], .number, .lit [' ', 'm', 'i', 'n', 'u', 't', 'e']], .seqs [.lit ['i', 'n', ' '], .number, .lit [' ', 'm', 'o', 'n', 't', 'h', 's']], .seqs [.lit ['i', 'n', ' '], .number, .lit [' ', 's', 'e', 'c', 'o', 'n', 'd']], .seqs [.number, .lit [' ', 'd', 'a', 'y', 's', ' ', 'a', 'g', 'o']], .seqs [.number, .lit [' ', 'h', 'o', 'u', 'r', ' ', 'a', 'g', 'o']], .seqs [.number, .lit [' ', 'w', 'e', 'e', 'k', ' ', 'a', 'g', 'o']], .seqs [.number, .lit [' ', 'y', 'e', 'a', 'r', ' ', 'a', 'g', 'o']], .seqs [.lit ['i', 'n', ' '], .number, .lit [' ', 'h', 'o', 'u', 'r', 's']], .seqs [.lit ['i', 'n', ' '], .number, .lit [' ', 'm', 'o', 'n', 't', 'h']], .seqs [.lit ['i', 'n', ' '], .number, .lit [' ', 'w', 'e', 'e', 'k', 's']], .seqs [.lit ['i', 'n', ' '], .number, .lit [' ', 'y', 'e', 'a', 'r', 's']], .seqs [.number, .lit [' ', 'd', 'a', 'y', ' ', 'a', 'g', 'o']], .seqs [.number, .lit [' ', 'm', 'i', 'n', ' ', 'a', 'g', 'o']], .seqs [.number, .lit [' ', 'm', 't', 'h', ' ', 'a', 'g', 'o']], .seqs [.number, .lit [' ', 's', 'e', 'c', ' ', 'a', 'g', 'o']], .seqs [.lit ['i', 'n', ' '], .number, .lit [' ', 'd', 'a', 'y', 's']], .seqs [.lit ['i', 'n', ' '], .number, .lit [' ', 'h', 'o', 'u', 'r']], .seqs [.lit ['i', 'n', ' '], .number, .lit [' ', 'w', 'e', 'e', 'k']], .seqs [.lit ['i', 'n', ' '], .number, .lit [' ', 'y', 'e', 'a', 'r']], .seqs [.number, .lit [' ', 'h', 'r', ' ', 'a', 'g', 'o']], .seqs [.number, .lit [' ', 'm', 'o', ' ', 'a', 'g', 'o']], .seqs [.number, .lit [' ', 'w', 'k', ' ', 'a', 'g', 'o']], .seqs [.number, .lit [' ', 'y', 'r', ' ', 'a', 'g', 'o']], .seqs [.lit ['i', 'n', ' '], .number, .lit [' ', 'd', 'a', 'y']], .seqs [.lit ['i', 'n', ' '], .number, .lit [' ', 'm', 'i', 'n']], .seqs [.lit ['i', 'n', ' '], .number, .lit [' ', 'm', 't', 'h']], .seqs [.lit ['i', 'n', ' '], .number, .lit [' ', 's', 'e', 'c']], .seqs [.lit ['i', 'n', ' '], .number, .lit [' ', 'h', 'r']], .seqs [.lit ['i', 'n', ' '], .number, .lit [' ', 'm', 'o']], .seqs [.lit ['i', 'n', ' '], .number, .lit [' ', 'w', 'k']], .seqs [.lit ['i', 'n', ' '], .number, .lit [' ', 'y', 'r']]]), .eos]),
  knownWords :=
   [['d', 'a', 'y', ' ', 'b', 'e', 'f', 'o', 'r', 'e', ' ', 'y', 'e', 's', 't', 'e', 'r', 'd', 'a', 'y'], ['d', 'a', 'y', ' ', 'a', 'f', 't', 'e', 'r', ' ', 't', 'o', 'm', 'o', 'r', 'r', 'o', 'w'], ['l', 'a', 's', 't', ' ', 'd', 'e', 'c', 'a', 'd', 'e'], ['n', 'e', 'x', 't', ' ', 'd', 'e', 'c', 'a', 'd', 'e'], ['t', 'h', 'i', 's', ' ', 'd', 'e', 'c', 'a', 'd', 'e'], ['t', 'h', 'i', 's', ' ', 'm', 'i', 'n', 'u', 't', 'e'], ['l', 'a', 's', 't', ' ', 'm', 'o', 'n', 't', 'h'], ['n', 'e', 'x', 't', ' ', 'm', 'o', 'n', 't', 'h'], ['t', 'h', 'i', 's', ' ', 'm', 'o', 'n', 't', 'h'], ['l', 'a', 's', 't', ' ', 'w', 'e', 'e', 'k'], ['l', 'a', 's', 't', ' ', 'y', 'e', 'a', 'r'], ['n', 'e', 'x', 't', ' ', 'w', 'e', 'e', 'k'], ['n', 'e', 'x', 't', ' ', 'y', 'e', 'a', 'r'], ['s', 'e', 'p', 't', 'e', 'm', 'b', 'e', 'r'], ['t', 'h', 'i', 's', ' ', 'h', 'o', 'u', 'r'], ['t', 'h', 'i', 's', ' ', 'w', 'e', 'e', 'k'], ['t', 'h', 'i', 's', ' ', 'y', 'e', 'a', 'r'], ['t', 'i', 'l', 'l', ' ', 'd', 'a', 't', 'e'], ['w', 'e', 'd', 'n', 'e', 's', 'd', 'a', 'y'], ['y', 'e', 's', 't', 'e', 'r', 'd', 'a', 'y'], ['d', 'e', 'c', 'e', 'm', 'b', 'e', 'r'], ['f', 'e', 'b', 'r', 'u', 'a', 'r', 'y'], ['f', 'r', 'o', 'm', ' ', 'n', 'o', 'w'], ['l', 'a', 's', 't', ' ', 'm', 't', 'h'], ['n', 'e', 'x', 't', ' ', 'm', 't', 'h'], ['n', 'o', 'v', 'e', 'm', 'b', 'e', 'r'], ['s', 'a', 't', 'u', 'r', 'd', 'a', 'y'], ['t', 'h', 'i', 's', ' ', 'm', 't', 'h'], ['t', 'h', 'u', 'r', 's', 'd', 'a', 'y'], ['t', 'o', 'm', 'o', 'r', 'r', 'o', 'w'], ['d', 'e', 'c', 'a', 'd', 'e', 's'], ['j', 'a', 'n', 'u', 'a', 'r', 'y'], ['l', 'a', 's', 't', ' ', 'm', 'o'], ['l', 'a', 's', 't', ' ', 'w', 'k'], ['l', 'a', 's', 't', ' ', 'y', 'r'], ['m', 'i', 'n', 'u', 't', 'e', 's'], ['n', 'e', 'x', 't', ' ', 'm', 'o'], ['n', 'e', 'x', 't', ' ', 'w', 'k'], ['n', 'e', 'x', 't', ' ', 'y', 'r'], ['o', 'c', 't', 'o', 'b', 'e', 'r'], ['s', 'e', 'c', 'o', 'n', 'd', 's'], ['t', 'h', 'i', 's', ' ', 'm', 'o'], ['t', 'h', 'i', 's', ' ', 'w', 'k'], ['t', 'h', 'i', 's', ' ', 'y', 'r'], ['t', 'u', 'e', 's', 'd', 'a', 'y'], ['a', 'u', 'g', 'u', 's', 't'], ['b', 'e', 'f', 'o', 'r', 'e'], ['d', 'e', 'c', 'a', 'd', 'e'], ['f', 'r', 'i', 'd', 'a', 'y'], ['m', 'i', 'n', 'u', 't', 'e'], ['m', 'o', 'n', 'd', 'a', 'y'], ['m', 'o', 'n', 't', 'h', 's'], ['s', 'e', 'c', 'o', 'n', 'd'], ['s', 'u', 'n', 'd', 'a', 'y'], ['a', 'b', 'o', 'u', 't'], ['a', 'f', 't', 'e', 'r'], ['a', 'p', 'r', 'i', 'l'], ['h', 'o', 'u', 'r', 's'], ['m', 'a', 'r', 'c', 'h'], ['m', 'o', 'n', 't', 'h'], ['t', 'o', 'd', 'a', 'y'], ['w', 'e', 'e', 'k', 's'], ['y', 'e', 'a', 'r', 's'], ['d', 'a', 'y', 's'], ['h', 'o', 'u', 'r'], ['j', 'u', 'l', 'y'], ['j', 'u', 'n', 'e'], ['j', 'u', 's', 't'], ['m', 'i', 'n', 's'], ['s', 'e', 'c', 's'], ['s', 'e', 'p', 't'], ['t', 'u', 'e', 's'], ['w', 'e', 'e', 'k'], ['y', 'e', 'a', 'r'], ['a', 'g', 'o'], ['a', 'n', 'd'], ['a', 'p', 'r'], ['a', 'u', 'g'], ['d', 'a', 'y'], ['d', 'e', 'c'], ['f', 'e', 'b'], ['f', 'r', 'i'], ['g', 'm', 't'], ['h', 'r', 's'], ['j', 'a', 'n'], ['j', 'u', 'l'], ['j', 'u', 'n'], ['m', 'a', 'r'], ['m', 'a', 'y'], ['m', 'i', 'n'], ['m', 'o', 'n'], ['m', 't', 'h'], ['n', 'o', 'v'], ['n', 'o', 'w'], ['o', 'c', 't'], ['s', 'a', 't'], ['s', 'e', 'c'], ['s', 'e', 'p'], ['s', 'u', 'n'], ['t', 'h', 'e'], ['t', 'h', 'u'], ['t', 'u', 'e'], ['u', 't', 'c'], ['w', 'e', 'd'], ['a', 'd'], ['a', 'm'], ['a', 't'], ['b', 'y'], ['h', 'r'], ['i', 'n'], ['m', 'o'], ['n', 'd'], ['o', 'f'], ['o', 'n'], ['p', 'm'], ['r', 'd'], ['s', 't'], ['t', 'h'], ['w', 'k'], ['y', 'r'], [' '], ['\''], ['+'], [','], ['-'], ['.'], ['/'], [':'], [';'], ['@'], ['['], [']'], ['d'], ['h'], ['m'], ['s'], ['y'], ['z'], ['|']] }

/-- internal/data/en.go: `en_SH_Locale`. -/
def en_SHLang : LangData := en_SHDict

/-- internal/data/en.go: `en_SI_Locale`. -/
def en_SILang : LangData := en_SIDict

/-- internal/data/en.go: `en_SL_Locale`. -/
def en_SLLang : LangData := en_SLDict

/-- internal/data/en.go: `en_SS_Locale`. -/
def en_SSLang : LangData := en_SSDict

/-- internal/data/en.go: `en_SX_Locale`. -/
def en_SXLang : LangData := en_SXDict

/-- internal/data/en.go: `en_SZ_Locale`. -/
def en_SZLang : LangData := en_SZDict

/-- internal/data/en.go: `en_TC_Locale`. -/
def en_TCLang : LangData := en_TCDict

/-- internal/data/en.go: `en_TK_Locale`. -/
def en_TKLang : LangData := en_TKDict

/-- internal/data/en.go: `en_TO_Locale`. -/
def en_TOLang : LangData := en_TODict

/-- internal/data/en.go: `en_TT_Locale`. -/
def en_TTLang : LangData := en_TTDict

/-- internal/data/en.go: `en_TV_Locale`. -/
def en_TVLang : LangData := en_TVDict

/-- internal/data/en.go: `en_TZ_Locale`. -/
def en_TZLang : LangData := en_TZDict

/-- internal/data/en.go: `en_UG_Locale`. -/
def en_UGLang : LangData := en_UGDict

/-- internal/data/en.go: `en_UM_Locale`. -/
def en_UMLang : LangData := en_UMDict

/-- internal/data/en.go: `en_VC_Locale`. -/
def en_VCLang : LangData := en_VCDict

/-- internal/data/en.go: `en_VG_Locale`. -/
def en_VGLang : LangData := en_VGDict

/-- internal/data/en.go: `en_VI_Locale`. -/
def en_VILang : LangData := en_VIDict

/-- internal/data/en.go: `en_VU_Locale`. -/
def en_VULang : LangData := en_VUDict

/-- internal/data/en.go: `en_WS_Locale`. -/
def en_WSLang : LangData := en_WSDict

/-- internal/data/en.go: `en_ZA_Locale`. -/
def en_ZALang : LangData := en_ZADict

/-- internal/data/en.go: `en_ZM_Locale`. -/
def en_ZMLang : LangData := en_ZMDict

/-- internal/data/en.go: `en_ZW_Locale`. -/
def en_ZWLang : LangData := en_ZWDict

/-- internal/data/eo.go: `eo_Locale`. -/
def eoLang : LangData := { eoDict with
  knownWords :=
   [['t', 'h', 'i', 's', ' ', 'm', 'i', 'n', 'u', 't', 'e'], ['l', 'a', 's', 't', ' ', 'm', 'o', 'n', 't', 'h'], ['n', 'e', 'x', 't', ' ', 'm', 'o', 'n', 't', 'h'], ['t', 'h', 'i', 's', ' ', 'm', 'o', 'n', 't', 'h'], ['l', 'a', 's', 't', ' ', 'w', 'e', 'e', 'k'], ['l', 'a', 's', 't', ' ', 'y', 'e', 'a', 'r'], ['n', 'e', 'x', 't', ' ', 'w', 'e', 'e', 'k'], ['n', 'e', 'x', 't', ' ', 'y', 'e', 'a', 'r'], ['s', 'e', 'p', 't', 'e', 'm', 'b', 'r', 'o'], ['t', 'h', 'i', 's', ' ', 'h', 'o', 'u', 'r'], ['t', 'h', 'i', 's', ' ', 'w', 'e', 'e', 'k'], ['t', 'h', 'i', 's', ' ', 'y', 'e', 'a', 'r'], ['y', 'e', 's', 't', 'e', 'r', 'd', 'a', 'y'], ['d', 'e', 'c', 'e', 'm', 'b', 'r', 'o'], ['f', 'e', 'b', 'r', 'u', 'a', 'r', 'o'], ['m', 'e', 'r', 'k', 'r', 'e', 'd', 'o'], ['n', 'o', 'v', 'e', 'm', 'b', 'r', 'o'], ['t', 'o', 'm', 'o', 'r', 'r', 'o', 'w'], ['v', 'e', 'n', 'd', 'r', 'e', 'd', 'o'], ['a', 'u', 'g', 'u', 's', 't', 'o'], ['d', 'i', 'm', 'a', 'n', 'c', 'o'], ['j', 'a', 'n', 'u', 'a', 'r', 'o'], ['o', 'k', 't', 'o', 'b', 'r', 'o'], ['a', 'p', 'r', 'i', 'l', 'o'], ['m', 'i', 'n', 'u', 't', 'e'], ['s', 'a', 'b', 'a', 't', 'o'], ['s', 'e', 'c', 'o', 'n', 'd'], ['j', 'a', 'u', 'd', 'o'], ['j', 'u', 'l', 'i', 'o'], ['j', 'u', 'n', 'i', 'o'], ['l', 'u', 'n', 'd', 'o'], ['m', 'a', 'r', 'd', 'o'], ['m', 'a', 'r', 't', 'o'], ['m', 'o', 'n', 't', 'h'], ['t', 'o', 'd', 'a', 'y'], ['h', 'o', 'u', 'r'], ['m', 'a', 'j', 'o'], ['w', 'e', 'e', 'k'], ['y', 'e', 'a', 'r'], ['a', 'p', 'r'], ['a', 't', 'm'], ['a', 'u', 'g'], ['d', 'a', 'y'], ['d', 'e', 'c'], ['f', 'e', 'b'], ['g', 'm', 't'], ['j', 'a', 'n'], ['j', 'u', 'l'], ['j', 'u', 'n'], ['m', 'a', 'j'], ['m', 'a', 'r'], ['n', 'o', 'v'], ['n', 'o', 'w'], ['o', 'k', 't'], ['p', 't', 'm'], ['s', 'e', 'p'], ['u', 't', 'c'], ['a', 'm'], ['d', 'i'], ['j', 'a'], ['l', 'u'], ['m', 'a'], ['m', 'e'], ['p', 'm'], ['s', 'a'], ['v', 'e'], [' '], ['\''], ['+'], [','], ['-'], ['.'], ['/'], [':'], [';'], ['@'], ['['], [']'], ['z'], ['|']] }

/-- internal/data/es.go: `es_Locale`. -/
def esLang : LangData := { esDict with
  simplifications :=
   [(.seqs [.grp 1 (.alts [.bos, .noWord]), .lit ['u', 'n', 'a'], .grp 2 (.alts [.eos, .noWord])], [.ref 1, .lit ['1'], .ref 2]),
    (.seqs [.grp 1 (.alts [.bos, .noWord]), .lit ['u', 'n'], .grp 2 (.alts [.eos, .noWord])], [.ref 1, .lit ['1'], .ref 2])],
  relativeRegexes :=
   [(.seqs [.lit ['d', 'e', 'n', 't', 'r', 'o', ' ', 'd', 'e', ' '], .grp 1 (.number), .lit [' ', 's', 'e', 'g', 'u', 'n', 'd', 'o', 's']], [.lit ['i', 'n', ' '], .ref 1, .lit [' ', 's', 'e', 'c', 'o', 'n', 'd']]),
    (.seqs [.lit ['d', 'e', 'n', 't', 'r', 'o', ' ', 'd', 'e', ' '], .grp 1 (.number), .lit [' ', 'm', 'i', 'n', 'u', 't', 'o', 's']], [.lit ['i', 'n', ' '], .ref 1, .lit [' ', 'm', 'i', 'n', 'u', 't', 'e']]),
    (.seqs [.lit ['d', 'e', 'n', 't', 'r', 'o', ' ', 'd', 'e', ' '], .grp 1 (.number), .lit [' ', 's', 'e', 'g', 'u', 'n', 'd', 'o']], [.lit ['i', 'n', ' '], .ref 1, .lit [' ', 's', 'e', 'c', 'o', 'n', 'd']]),
    (.seqs [.lit ['d', 'e', 'n', 't', 'r', 'o', ' ', 'd', 'e', ' '], .grp 1 (.number), .lit [' ', 's', 'e', 'm', 'a', 'n', 'a', 's']], [.lit ['i', 'n', ' '], .ref 1, .lit [' ', 'w', 'e', 'e', 'k']]),
    (.seqs [.lit ['d', 'e', 'n', 't', 'r', 'o', ' ', 'd', 'e', ' '], .grp 1 (.number), .lit [' ', 'm', 'i', 'n', 'u', 't', 'o']], [.lit ['i', 'n', ' '], .ref 1, .lit [' ', 'm', 'i', 'n', 'u', 't', 'e']]),
    (.seqs [.lit ['d', 'e', 'n', 't', 'r', 'o', ' ', 'd', 'e', ' '], .grp 1 (.number), .lit [' ', 's', 'e', 'm', 'a', 'n', 'a']], [.lit ['i', 'n', ' '], .ref 1, .lit [' ', 'w', 'e', 'e', 'k']]),
    (.seqs [.lit ['d', 'e', 'n', 't', 'r', 'o', ' ', 'd', 'e', ' '], .grp 1 (.number), .lit [' ', 'h', 'o', 'r', 'a', 's']], [.lit ['i', 'n', ' '], .ref 1, .lit [' ', 'h', 'o', 'u', 'r']]),
    (.seqs [.lit ['d', 'e', 'n', 't', 'r', 'o', ' ', 'd', 'e', ' '], .grp 1 (.number), .lit [' ', 'm', 'e', 's', 'e', 's']], [.lit ['i', 'n', ' '], .ref 1, .lit [' ', 'm', 'o', 'n', 't', 'h']]),
    (.seqs [.lit ['d', 'e', 'n', 't', 'r', 'o', ' ', 'd', 'e', ' '], .grp 1 (.number), .lit [' ', 'a', 'n', 'o', 's']], [.lit ['i', 'n', ' '], .ref 1, .lit [' ', 'y', 'e', 'a', 'r']]),
    (.seqs [.lit ['d', 'e', 'n', 't', 'r', 'o', ' ', 'd', 'e', ' '], .grp 1 (.number), .lit [' ', 'd', 'i', 'a', 's']], [.lit ['i', 'n', ' '], .ref 1, .lit [' ', 'd', 'a', 'y']]),
    (.seqs [.lit ['d', 'e', 'n', 't', 'r', 'o', ' ', 'd', 'e', ' '], .grp 1 (.number), .lit [' ', 'h', 'o', 'r', 'a']], [.lit ['i', 'n', ' '], .ref 1, .lit [' ', 'h', 'o', 'u', 'r']]),
    (.seqs [.lit ['d', 'e', 'n', 't', 'r', 'o', ' ', 'd', 'e', ' '], .grp 1 (.number), .lit [' ', 'a', 'n', 'o']], [.lit ['i', 'n', ' '], .ref 1, .lit [' ', 'y', 'e', 'a', 'r']]),
    (.seqs [.lit ['d', 'e', 'n', 't', 'r', 'o', ' ', 'd', 'e', ' '], .grp 1 (.number), .lit [' ', 'd', 'i', 'a']], [.lit ['i', 'n', ' '], .ref 1, .lit [' ', 'd', 'a', 'y']]),
    (.seqs [.lit ['d', 'e', 'n', 't', 'r', 'o', ' ', 'd', 'e', ' '], .grp 1 (.number), .lit [' ', 'm', 'e', 's']], [.lit ['i', 'n', ' '], .ref 1, .lit [' ', 'm', 'o', 'n', 't', 'h']]),
    (.seqs [.lit ['d', 'e', 'n', 't', 'r', 'o', ' ', 'd', 'e', ' '], .grp 1 (.number), .lit [' ', 'm', 'i', 'n']], [.lit ['i', 'n', ' '], .ref 1, .lit [' ', 'm', 'i', 'n', 'u', 't', 'e']]),
    (.seqs [.lit ['d', 'e', 'n', 't', 'r', 'o', ' ', 'd', 'e', ' '], .grp 1 (.number), .lit [' ', 's', 'e', 'm']], [.lit ['i', 'n', ' '], .ref 1, .lit [' ', 'w', 'e', 'e', 'k']]),
    (.seqs [.lit ['h', 'a', 'c', 'e', ' '], .grp 1 (.number), .lit [' ', 's', 'e', 'g', 'u', 'n', 'd', 'o', 's']], [.ref 1, .lit [' ', 's', 'e', 'c', 'o', 'n', 'd', ' ', 'a', 'g', 'o']]),
    (.seqs [.lit ['h', 'a', 'c', 'e', ' '], .grp 1 (.number), .lit [' ', 'm', 'i', 'n', 'u', 't', 'o', 's']], [.ref 1, .lit [' ', 'm', 'i', 'n', 'u', 't', 'e', ' ', 'a', 'g', 'o']]),
    (.seqs [.lit ['h', 'a', 'c', 'e', ' '], .grp 1 (.number), .lit [' ', 's', 'e', 'g', 'u', 'n', 'd', 'o']], [.ref 1, .lit [' ', 's', 'e', 'c', 'o', 'n', 'd', ' ', 'a', 'g', 'o']]),
    (.seqs [.lit ['h', 'a', 'c', 'e', ' '], .grp 1 (.number), .lit [' ', 's', 'e', 'm', 'a', 'n', 'a', 's']], [.ref 1, .lit [' ', 'w', 'e', 'e', 'k', ' ', 'a', 'g', 'o']]),
    (.seqs [.lit ['d', 'e', 'n', 't', 'r', 'o', ' ', 'd', 'e', ' '], .grp 1 (.number), .lit [' ', 'a']], [.lit ['i', 'n', ' '], .ref 1, .lit [' ', 'y', 'e', 'a', 'r']]),
    (.seqs [.lit ['d', 'e', 'n', 't', 'r', 'o', ' ', 'd', 'e', ' '], .grp 1 (.number), .lit [' ', 'h']], [.lit ['i', 'n', ' '], .ref 1, .lit [' ', 'h', 'o', 'u', 'r']]),
    (.seqs [.lit ['d', 'e', 'n', 't', 'r', 'o', ' ', 'd', 'e', ' '], .grp 1 (.number), .lit [' ', 'm']], [.lit ['i', 'n', ' '], .ref 1, .lit [' ', 'm', 'o', 'n', 't', 'h']]),
    (.seqs [.lit ['d', 'e', 'n', 't', 'r', 'o', ' ', 'd', 'e', ' '], .grp 1 (.number), .lit [' ', 's']], [.lit ['i', 'n', ' '], .ref 1, .lit [' ', 's', 'e', 'c', 'o', 'n', 'd']]),
    (.seqs [.lit ['h', 'a', 'c', 'e', ' '], .grp 1 (.number), .lit [' ', 'm', 'i', 'n', 'u', 't', 'o']], [.ref 1, .lit [' ', 'm', 'i', 'n', 'u', 't', 'e', ' ', 'a', 'g', 'o']]),
    (.seqs [.lit ['h', 'a', 'c', 'e', ' '], .grp 1 (.number), .lit [' ', 's', 'e', 'm', 'a', 'n', 'a']], [.ref 1, .lit [' ', 'w', 'e', 'e', 'k', ' ', 'a', 'g', 'o']]),
    (.seqs [.lit ['h', 'a', 'c', 'e', ' '], .grp 1 (.number), .lit [' ', 'h', 'o', 'r', 'a', 's']], [.ref 1, .lit [' ', 'h', 'o', 'u', 'r', ' ', 'a', 'g', 'o']]),
    (.seqs [.lit ['h', 'a', 'c', 'e', ' '], .grp 1 (.number), .lit [' ', 'm', 'e', 's', 'e', 's']], [.ref 1, .lit [' ', 'm', 'o', 'n', 't', 'h', ' ', 'a', 'g', 'o']]),
    (.seqs [.lit ['h', 'a', 'c', 'e', ' '], .grp 1 (.number), .lit [' ', 'a', 'n', 'o', 's']], [.ref 1, .lit [' ', 'y', 'e', 'a', 'r', ' ', 'a', 'g', 'o']]),
    (.seqs [.lit ['h', 'a', 'c', 'e', ' '], .grp 1 (.number), .lit [' ', 'd', 'i', 'a', 's']], [.ref 1, .lit [' ', 'd', 'a', 'y', ' ', 'a', 'g', 'o']]),
    (.seqs [.lit ['h', 'a', 'c', 'e', ' '], .grp 1 (.number), .lit [' ', 'h', 'o', 'r', 'a']], [.ref 1, .lit [' ', 'h', 'o', 'u', 'r', ' ', 'a', 'g', 'o']]),
    (.seqs [.lit ['h', 'a', 'c', 'e', ' '], .grp 1 (.number), .lit [' ', 'a', 'n', 'o']], [.ref 1, .lit [' ', 'y', 'e', 'a', 'r', ' ', 'a', 'g', 'o']]),
    (.seqs [.lit ['h', 'a', 'c', 'e', ' '], .grp 1 (.number), .lit [' ', 'd', 'i', 'a']], [.ref 1, .lit [' ', 'd', 'a', 'y', ' ', 'a', 'g', 'o']]),
    (.seqs [.lit ['h', 'a', 'c', 'e', ' '], .grp 1 (.number), .lit [' ', 'm', 'e', 's']], [.ref 1, .lit [' ', 'm', 'o', 'n', 't', 'h', ' ', 'a', 'g', 'o']]),
    (.seqs [.lit ['h', 'a', 'c', 'e', ' '], .grp 1 (.number), .lit [' ', 'm', 'i', 'n']], [.ref 1, .lit [' ', 'm', 'i', 'n', 'u', 't', 'e', ' ', 'a', 'g', 'o']]),
    (.seqs [.lit ['h', 'a', 'c', 'e', ' '], .grp 1 (.number), .lit [' ', 's', 'e', 'm']], [.ref 1, .lit [' ', 'w', 'e', 'e', 'k', ' ', 'a', 'g', 'o']]),
    (.seqs [.lit ['h', 'a', 'c', 'e', ' '], .grp 1 (.number), .lit [' ', 'a']], [.ref 1, .lit [' ', 'y', 'e', 'a', 'r', ' ', 'a', 'g', 'o']]),
    (.seqs [.lit ['h', 'a', 'c', 'e', ' '], .grp 1 (.number), .lit [' ', 'h']], [.ref 1, .lit [' ', 'h', 'o', 'u', 'r', ' ', 'a', 'g', 'o']]),
    (.seqs [.lit ['h', 'a', 'c', 'e', ' '], .grp 1 (.number), .lit [' ', 'm']], [.ref 1, .lit [' ', 'm', 'o', 'n', 't', 'h', ' ', 'a', 'g', 'o']]),
    (.seqs [.lit ['h', 'a', 'c', 'e', ' '], .grp 1 (.number), .lit [' ', 's']], [.ref 1, .lit [' ', 's', 'e', 'c', 'o', 'n', 'd', ' ', 'a', 'g', 'o']])],
  rxCombined := some (.seqs [.grp 1 (.alts [.bos, .cls true [.letter, .mark, .digit], .lit ['_']]), .grp 2 (.alts [.seqs [.lit ['d', 'e', 'n', 't', 'r', 'o', ' ', 'd', 'e', ' '], .number, .lit [' ', 's', 'e', 'g', 'u', 'n', 'd', 'o', 's']], .seqs [.lit ['d', 'e', 'n', 't', 'r', 'o', ' ', 'd', 'e', ' '], .number, .lit [' ', 'm', 'i', 'n', 'u', 't', 'o', 's']], .seqs [.lit ['d', 'e', 'n', 't', 'r', 'o', ' ', 'd', 'e', ' '], .number, .lit [' ', 's', 'e', 'g', 'u', 'n', 'd', 'o']], .seqs [.lit ['d', 'e', 'n', 't', 'r', 'o', ' ', 'd', 'e', ' '], .number, .lit [' ', 's', 'e', 'm', 'a', 'n', 'a', 's']], .seqs [.lit ['d', 'e', 'n', 't', 'r', 'o', ' ', 'd', 'e', ' '], .number, .lit [' ', 'm', 'i', 'n', 'u', 't', 'o']], .seqs [.lit ['d', 'e', 'n', 't', 'r', 'o', ' ', 'd', 'e', ' '], .number, .lit [' ', 's', 'e', 'm', 'a', 'n', 'a']], .seqs [.lit ['d', 'e', 'n', 't', 'r', 'o', ' ', 'd', 'e', ' '], .number, .lit [' ', 'h', 'o', 'r', 'a', 's']], .seqs [.lit ['d', 'e', 'n', 't', 'r', 'o', ' ', 'd', 'e', ' '], .number, .lit [' ', 'm', 'e', 's', 'e', 's']], .seqs [.lit ['d', 'e', 'n', 't', 'r', 'o', ' ', 'd', 'e', ' '], .number, .lit [' ', 'a', 'n', 'o', 's']], .seqs [.lit ['d', 'e', 'n', 't', 'r', 'o', ' ', 'd', 'e', ' '], .number, .lit [' ', 'd', 'i', 'a', 's']], .seqs [.lit ['d', 'e', 'n', 't', 'r', 'o', ' ', 'd', 'e', ' '], .number, .lit [' ', 'h', 'o', 'r', 'a']], .seqs [.lit ['d', 'e', 'n', 't', 'r', 'o', ' ', 'd', 'e', ' '], .number, .lit [' ', 'a', 'n', 'o']], .seqs [.lit ['d', 'e', 'n', 't', 'r', 'o', ' ', 'd', 'e', ' '], .number, .lit [' ', 'd', 'i', 'a']], .seqs [.lit ['d', 'e', 'n', 't', 'r', 'o', ' ', 'd', 'e', ' '], .number, .lit [' ', 'm', 'e', 's']], .seqs [.lit ['d', 'e', 'n', 't', 'r', 'o', ' ', 'd', 'e', ' '], .number, .lit [' ', 'm', 'i', 'n']], .seqs [.lit ['d', 'e', 'n', 't', 'r', 'o', ' ', 'd', 'e', ' '], .number, .lit [' ', 's', 'e', 'm']], .seqs [.lit ['h', 'a', 'c', 'e', ' '], .number, .lit [' ', 's', 'e', 'g', 'u', 'n', 'd', 'o', 's']], .seqs [.lit ['h', 'a', 'c', 'e', ' '], .number, .lit [' ', 'm', 'i', 'n', 'u', 't', 'o', 's']], .seqs [.lit ['h', 'a', 'c', 'e', ' '], .number, .lit [' ', 's', 'e', 'g', 'u', 'n', 'd', 'o']], .seqs [.lit ['h', 'a', 'c', 'e', ' '], .number, .lit [' ', 's', 'e', 'm', 'a', 'n', 'a', 's']], .seqs [.lit ['d', 'e', 'n', 't', 'r', 'o', ' ', 'd', 'e', ' '], .number, .lit [' ', 'a']], .seqs [.lit ['d', 'e', 'n', 't', 'r', 'o', ' ', 'd', 'e', ' '], .number, .lit [' ', 'h']], .seqs [.lit ['d', 'e', 'n', 't', 'r', 'o', ' ', 'd', 'e', ' '], .number, .lit [' ', 'm']], .seqs [.lit ['d', 'e', 'n', 't', 'r', 'o', ' ', 'd', 'e', ' '], .number, .lit [' ', 's']], .seqs [.lit ['h', 'a', 'c', 'e', ' '], .number, .lit [' ', 'm', 'i', 'n', 'u', 't', 'o']], .seqs [.lit ['h', 'a', 'c', 'e', ' '], .number, .lit [' ', 's', 'e', 'm', 'a', 'n', 'a']], .seqs [.lit ['h', 'a', 'c', 'e', ' '], .number, .lit [' ', 'h', 'o', 'r', 'a', 's']], .seqs [.lit ['h', 'a', 'c', 'e', ' '], .number, .lit [' ', 'm', 'e', 's', 'e', 's']], .seqs [.lit ['h', 'a', 'c', 'e', ' '], .number, .lit [' ', 'a', 'n', 'o', 's']], .seqs [.lit ['h', 'a', 'c', 'e', ' '], .number, .lit [' ', 'd', 'i', 'a', 's']], .seqs [.lit ['h', 'a', 'c', 'e', ' '], .number, .lit [' ', 'h', 'o', 'r', 'a']], .seqs [.lit ['h', 'a', 'c', 'e', ' '], .number, .lit [' ', 'a', 'n', 'o']], .seqs [.lit ['h', 'a', 'c', 'e', ' '], .number, .lit [' ', 'd', 'i', 'a']], .seqs [.lit ['h', 'a', 'c', 'e', ' '], .number, .lit [' ', 'm', 'e', 's']], .seqs [.lit ['h', 'a', 'c', 'e', ' '], .number, .lit [' ', 'm', 'i', 'n']], .seqs [.lit ['h', 'a', 'c', 'e', ' '], .number, .lit [' ', 's', 'e', 'm']], .seqs [.lit ['h', 'a', 'c', 'e', ' '], .number, .lit [' ', 'a']], .seqs [.lit ['h', 'a', 'c', 'e', ' '], .number, .lit [' ', 'h']], .seqs [.lit ['h', 'a', 'c', 'e', ' '], .number, .lit [' ', 'm']], .seqs [.lit ['h', 'a', 'c', 'e', ' '], .number, .lit [' ', 's']]]), .grp 3 (.alts [.eos, .cls true [.letter, .mark, .digit], .lit ['_']])], 3),
  rxExact := some (.seqs [.bos, .grp 1 (.alts [.seqs [.lit ['d', 'e', 'n', 't', 'r', 'o', ' ', 'd', 'e', ' '], .number, .lit [' ', 's', 'e', 'g', 'u', 'n', 'd', 'o', 's']], .seqs [.lit ['d', 'e', 'n', 't', 'r', 'o', ' ', 'd', 'e', ' '], .number, .lit [' ', 'm', 'i', 'n', 'u', 't', 'o', 's']], .seqs [.lit ['d', 'e', 'n', 't', 'r', 'o', ' ', 'd', 'e', ' '], .number, .lit [' ', 's', 'e', 'g', 'u', 'n', 'd', 'o']], .seqs [.lit ['d', 'e', 'n', 't', 'r', 'o', ' ', 'd', 'e', ' '], .number, .lit [' ', 's', 'e', 'm', 'a', 'n', 'a', 's']], .seqs [.lit ['d', 'e', 'n', 't', 'r', 'o', ' ', 'd', 'e', ' '], .number, .lit [' ', 'm', 'i', 'n', 'u', 't', 'o']], .seqs [.lit ['d', 'e', 'n', 't', 'r', 'o', ' ', 'd', 'e', ' '], .number, .lit [' ', 's', 'e', 'm', 'a', 'n', 'a']], .seqs [.lit ['d', 'e', 'n', 't', 'r', 'o', ' ', 'd', 'e', ' '], .number, .lit [' ', 'h', 'o', 'r', 'a', 's']], .seqs [.lit ['d', 'e', 'n', 't', 'r', 'o', ' ', 'd', 'e', ' '], .number, .lit [' ', 'm', 'e', 's', 'e', 's']], .seqs [.lit ['d', 'e', 'n', 't', 'r', 'o', ' ', 'd', 'e', ' '], .number, .lit [' ', 'a', 'n', 'o', 's']], .seqs [.lit ['d', 'e', 'n', 't', 'r', 'o', ' ', 'd', 'e', ' '], .number, .lit [' ', 'd', 'i', 'a', 's']], .seqs [.lit ['d', 'e', 'n', 't', 'r', 'o', ' ', 'd', 'e', ' '], .number, .lit [' ', 'h', 'o', 'r', 'a']], .seqs [.lit ['d', 'e', 'n', 't', 'r', 'o', ' ', 'd', 'e', ' '], .number, .lit [' ', 'a', 'n', 'o']], .seqs [.lit ['d', 'e', 'n', 't', 'r', 'o', ' ', 'd', 'e', ' '], .number, .lit [' ', 'd', 'i', 'a']], .seqs [.lit ['d', 'e', 'n', 't', 'r', 'o', ' ', 'd', 'e', ' '], .number, .lit [' ', 'm', 'e', 's']], .seqs [.lit ['d', 'e', 'n', 't', 'r', 'o', ' ', 'd', 'e', ' '], .number, .lit [' ', 'm', 'i', 'n']], .seqs [.lit ['d', 'e', 'n', 't', 'r', 'o', ' ', 'd', 'e', ' '], .number, .lit [' ', 's', 'e', 'm']], .seqs [.lit ['h', 'a', 'c', 'e', ' '], .number, .lit [' ', 's', 'e', 'g', 'u', 'n', 'd', 'o', 's']], .seqs [.lit ['h', 'a', 'c', 'e', ' '], .number, .lit [' ', 'm', 'i', 'n', 'u', 't', 'o', 's']], .seqs [.lit ['h', 'a', 'c', 'e', ' '], .number, .lit [' ', 's', 'e', 'g', 'u', 'n', 'd', 'o']], .seqs [.lit ['h', 'a', 'c', 'e', ' '], .number, .lit [' ', 's', 'e', 'm', 'a', 'n', 'a', 's']], .seqs [.lit ['d', 'e', 'n', 't', 'r', 'o', ' ', 'd', 'e', ' '], .number, .lit [' ', 'a']], .seqs [.lit ['d', 'e', 'n', 't', 'r', 'o', ' ', 'd', 'e', ' '], .number, .lit [' ', 'h']], .seqs [.lit ['d', 'e', 'n', 't', 'r', 'o', ' ', 'd', 'e', ' '], .number, .lit [' ', 'm']], .seqs [.lit ['d', 'e', 'n', 't', 'r', 'o', ' ', 'd', 'e', ' '], .number, .lit [' ', 's']], .seqs [.lit ['h', 'a', 'c', 'e', ' '], .number, .lit [' ', 'm', 'i', 'n', 'u', 't', 'o']], .seqs [.lit ['h', 'a', 'c', 'e', ' '], .number, .lit [' ', 's', 'e', 'm', 'a', 'n', 'a']], .seqs [.lit ['h', 'a', 'c', 'e', ' '], .number, .lit [' ', 'h', 'o', 'r', 'a', 's']], .seqs [.lit ['h', 'a', 'c', 'e', ' '], .number, .lit [' ', 'm', 'e', 's', 'e', 's']], .seqs [.lit ['h', 'a', 'c', 'e', ' '], .number, .lit [' ', 'a', 'n', 'o', 's']], .seqs [.lit ['h', 'a', 'c', 'e', ' '], .number, .lit [' ', 'd', 'i', 'a', 's']], .seqs [.lit ['h', 'a', 'c', 'e', ' '], .number, .lit [' ', 'h', 'o', 'r', 'a']], .seqs [.lit ['h', 'a', 'c', 'e', ' '], .number, .lit [' ', 'a', 'n', 'o']], .seqs [.lit ['h', 'a', 'c', 'e', ' '], .number, .lit [' ', 'd', 'i', 'a']], .seqs [.lit ['h', 'a', 'c', 'e', ' '], .number, .lit [' ', 'm', 'e', 's']], .seqs [.lit ['h', 'a', 'c', 'e', ' '], .number, .lit [' ', 'm', 'i', 'n']], .seqs [.lit ['h', 'a', 'c', 'e', ' '], .number, .lit [' ', 's', 'e', 'm']], .seqs [.lit ['h', 'a', 'c', 'e', ' '], .number, .lit [' ', 'a']], .seqs [.lit ['h', 'a', 'c', 'e', ' '], .number, .lit [' ', 'h']], .seqs [.lit ['h', 'a', 'c', 'e', ' '], .number, .lit [' ', 'm']], .seqs [.lit ['h', 'a', 'c', 'e', ' '], .number, .lit [' ', 's']]]), .eos]),
  knownWords :=
   [['l', 'a', ' ', 'p', 'r', 'o', 'x', 'i', 'm', 'a', ' ', 's', 'e', 'm', 'a', 'n', 'a'], ['l', 'a', ' ', 's', 'e', 'm', 'a', 'n', 'a', ' ', 'p', 'a', 's', 'a', 'd', 'a'], ['e', 'l', ' ', 'p', 'r', 'o', 'x', 'i', 'm', 'o', ' ', 'a', 'n', 'o'], ['e', 'l', ' ', 'p', 'r', 'o', 'x', 'i', 'm', 'o', ' ', 'm', 'e', 's'], ['e', 'l', ' ', 'a', 'n', 'o', ' ', 'p', 'a', 's', 'a', 'd', 'o'], ['e', 'l', ' ', 'm', 'e', 's', ' ', 'p', 'a', 's', 'a', 'd', 'o'], ['e', 's', 't', 'a', ' ', 's', 'e', 'm', 'a', 'n', 'a'], ['e', 's', 't', 'e', ' ', 'm', 'i', 'n', 'u', 't', 'o'], ['s', 'e', 'p', 't', 'i', 'e', 'm', 'b', 'r', 'e'], ['d', 'i', 'c', 'i', 'e', 'm', 'b', 'r', 'e'], ['e', 's', 't', 'a', ' ', 'h', 'o', 'r', 'a'], ['m', 'i', 'e', 'r', 'c', 'o', 'l', 'e', 's'], ['n', 'o', 'v', 'i', 'e', 'm', 'b', 'r', 'e'], ['s', 'e', 't', 'i', 'e', 'm', 'b', 'r', 'e'], ['a', 'n', 't', 'e', 'a', 'y', 'e', 'r'], ['e', 's', 't', 'e', ' ', 'a', 'n', 'o'], ['e', 's', 't', 'e', ' ', 'm', 'e', 's'], ['s', 'e', 'g', 'u', 'n', 'd', 'o', 's'], ['d', 'o', 'm', 'i', 'n', 'g', 'o'], ['f', 'e', 'b', 'r', 'e', 'r', 'o'], ['m', 'i', 'n', 'u', 't', 'o', 's'], ['o', 'c', 't', 'u', 'b', 'r', 'e'], ['s', 'e', 'g', 'u', 'n', 'd', 'o'], ['s', 'e', 'm', 'a', 'n', 'a', 's'], ['v', 'i', 'e', 'r', 'n', 'e', 's'], ['a', 'g', 'o', 's', 't', 'o'], ['j', 'u', 'e', 'v', 'e', 's'], ['m', 'a', 'n', 'a', 'n', 'a'], ['m', 'a', 'r', 't', 'e', 's'], ['m', 'i', 'n', 'u', 't', 'o'], ['s', 'a', 'b', 'a', 'd', 'o'], ['s', 'e', 'm', 'a', 'n', 'a'], ['a', ' ', 'l', 'a', 's'], ['a', 'b', 'r', 'i', 'l'], ['a', 'h', 'o', 'r', 'a'], ['c', 'e', 'r', 'c', 'a'], ['e', 'n', 'e', 'r', 'o'], ['h', 'o', 'r', 'a', 's'], ['j', 'u', 'l', 'i', 'o'], ['j', 'u', 'n', 'i', 'o'], ['l', 'u', 'n', 'e', 's'], ['m', 'a', 'r', 'z', 'o'], ['m', 'e', 's', 'e', 's'], ['a', 'n', 'o', 's'], ['a', 'y', 'e', 'r'], ['d', 'i', 'a', 's'], ['h', 'a', 'c', 'e'], ['h', 'o', 'r', 'a'], ['m', 'a', 'y', 'o'], ['s', 'e', 'p', 't'], ['a', 'b', 'r'], ['a', 'g', 'o'], ['a', 'n', 'o'], ['d', 'e', 'l'], ['d', 'i', 'a'], ['d', 'i', 'c'], ['d', 'o', 'm'], ['e', 'n', 'e'], ['f', 'e', 'b'], ['g', 'm', 't'], ['h', 'o', 'y'], ['j', 'u', 'e'], ['j', 'u', 'l'], ['j', 'u', 'n'], ['l', 'u', 'n'], ['m', 'a', 'r'], ['m', 'a', 'y'], ['m', 'e', 's'], ['m', 'i', 'e'], ['m', 'i', 'n'], ['n', 'o', 'v'], ['o', 'c', 't'], ['s', 'a', 'b'], ['s', 'e', 'm'], ['s', 'e', 'p'], ['s', 'e', 't'], ['u', 't', 'c'], ['v', 'i', 'e'], ['a', 'm'], ['d', 'e'], ['d', 'o'], ['e', 'n'], ['j', 'u'], ['l', 'u'], ['m', 'i'], ['p', 'm'], ['s', 'a'], ['v', 'i'], [' '], ['\''], ['+'], [','], ['-'], ['.'], ['/'], [':'], [';'], ['@'], ['['], [']'], ['a'], ['d'], ['h'], ['m'], ['s'], ['y'], ['z'], ['|']] }

/-- internal/data/es.go: `es_419_Locale`. -/
def es_419Lang : LangData := es_419Dict

/-- internal/data/es.go: `es_AR_Locale`. -/
def es_ARLang : LangData := { es_ARDict with
  relativeRegexes :=
   [(.seqs [.lit ['d', 'e', 'n', 't', 'r', 'o', ' ', 'd', 'e', ' '], .grp 1 (.number), .lit [' ', 's', 'e', 'g']], [.lit ['i', 'n', ' '], .ref 1, .lit [' ', 's', 'e', 'c', 'o', 'n', 'd']]),
    (.seqs [.lit ['h', 'a', 'c', 'e', ' '], .grp 1 (.number), .lit [' ', 's', 'e', 'g']], [.ref 1, .lit [' ', 's', 'e', 'c', 'o', 'n', 'd', ' ', 'a', 'g', 'o']])],
  rxCombined := some (.seqs [.grp 1 (.alts [.bos, .cls true [.letter, .mark, .digit], .lit ['_']]), .grp 2 (.alts [.seqs [.lit ['d', 'e', 'n', 't', 'r', 'o', ' ', 'd', 'e', ' '], .number, .lit [' ', 's', 'e', 'g', 'u', 'n', 'd', 'o', 's']], .seqs [.lit ['d', 'e', 'n', 't', 'r', 'o', ' ', 'd', 'e', ' '], .number, .lit [' ', 'm', 'i', 'n', 'u', 't', 'o', 's']], .seqs [.lit ['d', 'e', 'n', 't', 'r', 'o', ' ', 'd', 'e', ' '], .number, .lit [' ', 's', 'e', 'g', 'u', 'n', 'd', 'o']], .seqs [.lit ['d', 'e', 'n', 't', 'r', 'o', ' ', 'd', 'e', ' '], .number, .lit [' ', 's', 'e', 'm', 'a', 'n', 'a', 's']], .seqs [.lit ['d', 'e', 'n', 't', 'r', 'o', ' ', 'd', 'e', ' '], .number, .lit [' ', 'm', 'i', 'n', 'u', 't', 'o']], .seqs [.lit ['d', 'e', 'n', 't', 'r', 'o', ' ', 'd', 'e', ' '], .number, .lit [' ', 's', 'e', 'm', 'a', 'n', 'a']], .seqs [.lit ['d', 'e', 'n', 't', 'r', 'o', ' ', 'd', 'e', ' '], .number, .lit [' ', 'h', 'o', 'r', 'a', 's']], .seqs [.lit ['d', 'e', 'n', 't', 'r', 'o', ' ', 'd', 'e', ' '], .number, .lit [' ', 'm', 'e', 's', 'e', 's']], .seqs [.lit ['d', 'e', 'n', 't', 'r', 'o', ' ', 'd', 'e', ' '], .number, .lit [' ', 'a', 'n', 'o', 's']], .seqs [.lit ['d', 'e', 'n', 't', 'r', 'o', ' ', 'd', 'e', ' '], .number, .lit [' ', 'd', 'i', 'a', 's']], .seqs [.lit ['d', 'e', 'n', 't', 'r', 'o', ' ', 'd', 'e', ' '], .number, .lit [' ', 'h', 'o', 'r', 'a']], .seqs [.lit ['d', 'e', 'n', 't', 'r', 'o', ' ', 'd', 'e', ' '], .number, .lit [' ', 'a', 'n', 'o']], .seqs [.lit ['d', 'e', 'n', 't', 'r', 'o', ' ', 'd', 'e', ' '], .number, .lit [' ', 'd', 'i', 'a']], .seqs [.lit ['d', 'e', 'n', 't', 'r', 'o', ' ', 'd', 'e', ' '], .number, .lit [' ', 'm', 'e', 's']], .seqs [.lit ['d', 'e', 'n', 't', 'r', 'o', ' ', 'd', 'e', ' '], .number, .lit [' ', 'm', 'i', 'n']], .seqs [.lit ['d', 'e', 'n', 't', 'r', 'o', ' ', 'd', 'e', ' '], .number, .lit [' ', 's', 'e', 'g']], .seqs [.lit ['d', 'e', 'n', 't', 'r', 'o', ' ', 'd', 'e', ' '], .number, .lit [' ', 's', 'e', 'm']], .seqs [.lit ['h', 'a', 'c', 'e', ' '], .number, .lit [' ', 's', 'e', 'g', 'u', 'n', 'd', 'o', 's']], .seqs [.lit ['h', 'a', 'c', 'e', ' '], .number, .lit [' ', 'm', 'i', 'n', 'u', 't', 'o', 's']], .seqs [.lit ['h', 'a', 'c', 'e', ' '], .number, .lit [' ', 's', 'e', 'g', 'u', 'n', 'd', 'o']], .seqs [.lit ['h', 'a', 'c', 'e', ' '], .number, .lit [' ', 's', 'e', 'm', 'a', 'n', 'a', 's']], .seqs [.lit ['d', 'e', 'n', 't', 'r', 'o', ' ', 'd', 'e', ' '], .number, .lit [' ', 'a']], .seqs [.lit ['d', 'e', 'n', 't', 'r', 'o', ' ', 'd', 'e', ' '], .number, .lit [' ', 'h']], .seqs [.lit ['d', 'e', 'n', 't', 'r', 'o', ' ', 'd', 'e', ' '], .number, .lit [' ', 'm']], .seqs [.lit ['d', 'e', 'n', 't', 'r', 'o', ' ', 'd', 'e', ' '], .number, .lit [' ', 's']], .seqs [.lit ['h', 'a', 'c', 'e', ' '], .number, .lit [' ', 'm', 'i', 'n', 'u', 't', 'o']], .seqs [.lit ['h', 'a', 'c', 'e', ' '], .number, .lit [' ', 's', 'e', 'm', 'a', 'n', 'a']], .seqs [.lit ['h', 'a', 'c', 'e', ' '], .number, .lit [' ', 'h', 'o', 'r', 'a', 's']], .seqs [.lit ['h', 'a', 'c', 'e', ' '], .number, .lit [' ', 'm', 'e', 's', 'e', 's']], .seqs [.lit ['h', 'a', 'c', 'e', ' '], .number, .lit [' ', 'a', 'n', 'o', 's']], .seqs [.lit ['h', 'a', 'c', 'e', ' '], .number, .lit [' ', 'd', 'i', 'a', 's']], .seqs [.lit ['h', 'a', 'c', 'e', ' '], .number, .lit [' ', 'h', 'o', 'r', 'a']], .seqs [.lit ['h', 'a', 'c', 'e', ' '], .number, .lit [' ', 'a', 'n', 'o']], .seqs [.lit ['h', 'a', 'c', 'e', ' '], .number, .lit [' ', 'd', 'i', 'a']], .seqs [.lit ['h', 'a', 'c', 'e', ' '], .number, .lit [' ', 'm', 'e', 's']], .seqs [.lit ['h', 'a', 'c', 'e', ' '], .number, .lit [' ', 'm', 'i', 'n']], .seqs [.lit ['h', 'a', 'c', 'e', ' '], .number, .lit [' ', 's', 'e', 'g']], .seqs [.lit ['h', 'a', 'c', 'e', ' '], .number, .lit [' ', 's', 'e', 'm']], .seqs [.lit ['h', 'a', 'c', 'e', ' '], .number, .lit [' ', 'a']], .seqs [.lit ['h', 'a', 'c', 'e', ' '], .number, .lit [' ', 'h']], .seqs [.lit ['h', 'a', 'c', 'e', ' '], .number, .lit [' ', 'm']], .seqs [.lit ['h', 'a', 'c', 'e', ' '], .number, .lit [' ', 's']]]), .grp 3 (.alts [.eos, .cls true [.letter, .mark, .digit], .lit ['_']])], 3),
  rxExact := some (.seqs [.bos, .grp 1 (.alts [.seqs [.lit ['d', 'e', 'n', 't', 'r', 'o', ' ', 'd', 'e', ' '], .number, .lit [' ', 's', 'e', 'g', 'u', 'n', 'd', 'o', 's']], .seqs [.lit ['d', 'e', 'n', 't', 'r', 'o', ' ', 'd', 'e', ' '], .number, .lit [' ', 'm', 'i', 'n', 'u', 't', 'o', 's']], .seqs [.lit ['d', 'e', 'n', 't', 'r', 'o', ' ', 'd', 'e', ' '], .number, .lit [' ', 's', 'e', 'g', 'u', 'n', 'd', 'o']], .seqs [.lit ['d', 'e', 'n', 't', 'r', 'o', ' ', 'd', 'e', ' '], .number, .lit [' ', 's', 'e', 'm', 'a', 'n', 'a', 's']], .seqs [.lit ['d', 'e', 'n', 't', 'r', 'o', ' ', 'd', 'e', ' '], .number, .lit [' ', 'm', 'i', 'n', 'u', 't', 'o']], .seqs [.lit ['d', 'e', 'n', 't', 'r', 'o', ' ', 'd', 'e', ' '], .number, .lit [' ', 's', 'e', 'm', 'a', 'n', 'a']], .seqs [.lit ['d', 'e', 'n', 't', 'r', 'o', ' ', 'd', 'e', ' '], .number, .lit [' ', 'h', 'o', 'r', 'a', 's']], .seqs [.lit ['d', 'e', 'n', 't', 'r', 'o', ' ', 'd', 'e', ' '], .number, .lit [' ', 'm', 'e', 's', 'e', 's']], .seqs [.lit ['d', 'e', 'n', 't', 'r', 'o', ' ', 'd', 'e', ' '], .number, .lit [' ', 'a', 'n', 'o', 's']], .seqs [.lit ['d', 'e', 'n', 't', 'r', 'o', ' ', 'd', 'e', ' '], .number, .lit [' ', 'd', 'i', 'a', 's']], .seqs [.lit ['d', 'e', 'n', 't', 'r', 'o', ' ', 'd', 'e', ' '], .number, .lit [' ', 'h', 'o', 'r', 'a']], .seqs [.lit ['d', 'e', 'n', 't', 'r', 'o', ' ', 'd', 'e', ' '], .number, .lit [' ', 'a', 'n', 'o']], .seqs [.lit ['d', 'e', 'n', 't', 'r', 'o', ' ', 'd', 'e', ' '], .number, .lit [' ', 'd', 'i', 'a']], .seqs [.lit ['d', 'e', 'n', 't', 'r', 'o', ' ', 'd', 'e', ' '], .number, .lit [' ', 'm', 'e', 's']], .seqs [.lit ['d', 'e', 'n', 't', 'r', 'o', ' ', 'd', 'e', ' '], .number, .lit [' ', 'm', 'i', 'n']], .seqs [.lit ['d', 'e', 'n', 't', 'r', 'o', ' ', 'd', 'e', ' '], .number, .lit [' ', 's', 'e', 'g']], .seqs [.lit ['d', 'e', 'n', 't', 'r', 'o', ' ', 'd', 'e', ' '], .number, .lit [' ', 's', 'e', 'm']], .seqs [.lit ['h', 'a', 'c', 'e', ' '], .number, .lit [' ', 's', 'e', 'g', 'u', 'n', 'd', 'o', 's']], .seqs [.lit ['h', 'a', 'c', 'e', ' '], .number, .lit [' ', 'm', 'i', 'n', 'u', 't', 'o', 's']], .seqs [.lit ['h', 'a', 'c', 'e', ' '], .number, .lit [' ', 's', 'e', 'g', 'u', 'n', 'd', 'o']], .seqs [.lit ['h', 'a', 'c', 'e', ' '], .number, .lit [' ', 's', 'e', 'm', 'a', 'n', 'a', 's']], .seqs [.lit ['d', 'e', 'n', 't', 'r', 'o', ' ', 'd', 'e', ' '], .number, .lit [' ', 'a']], .seqs [.lit ['d', 'e', 'n', 't', 'r', 'o', ' ', 'd', 'e', ' '], .number, .lit [' ', 'h']], .seqs [.lit ['d', 'e', 'n', 't', 'r', 'o', ' ', 'd', 'e', ' '], .number, .lit [' ', 'm']], .seqs [.lit ['d', 'e', 'n', 't', 'r', 'o', ' ', 'd', 'e', ' '], .number, .lit [' ', 's']], .seqs [.lit ['h', 'a', 'c', 'e', ' '], .number, .lit [' ', 'm', 'i', 'n', 'u', 't', 'o']], .seqs [.lit ['h', 'a', 'c', 'e', ' '], .number, .lit [' ', 's', 'e', 'm', 'a', 'n', 'a']], .seqs [.lit ['h', 'a', 'c', 'e', ' '], .number, .lit [' ', 'h', 'o', 'r', 'a', 's']], .seqs [.lit ['h', 'a', 'c', 'e', ' '], .number, .lit [' ', 'm', 'e', 's', 'e', 's']], .seqs [.lit ['h', 'a', 'c', 'e', ' '], .number, .lit [' ', 'a', 'n', 'o', 's']], .seqs [.lit ['h', 'a', 'c', 'e', ' '], .number, .lit [' ', 'd', 'i', 'a', 's']], .seqs [.lit ['h', 'a', 'c', 'e', ' '], .number, .lit [' ', 'h', 'o', 'r', 'a']], .seqs [.lit ['h', 'a', 'c', 'e', ' '], .number, .lit [' ', 'a', 'n', 'o']], .seqs [.lit ['h', 'a', 'c', 'e', ' '], .number, .lit [' ', 'd', 'i', 'a']], .seqs [.lit ['h', 'a', 'c', 'e', ' '], .number, .lit [' ', 'm', 'e', 's']], .seqs [.lit ['h', 'a', 'c', 'e', ' '], .number, .lit [' ', 'm', 'i', 'n']], .seqs [.lit ['h', 'a', 'c', 'e', ' '], .number, .lit [' ', 's', 'e', 'g']], .seqs [.lit ['h', 'a', 'c', 'e', ' '], .number, .lit [' ', 's', 'e', 'm']], .seqs [.lit ['h', 'a', 'c', 'e', ' '], .number, .lit [' ', 'a']], .seqs [.lit ['h', 'a', 'c', 'e', ' '], .number, .lit [' ', 'h']], .seqs [.lit ['h', 'a', 'c', 'e', ' '], .number, .lit [' ', 'm']], .seqs [.lit ['h', 'a', 'c', 'e', ' '], .number, .lit [' ', 's']]]), .eos]),
  knownWords :=
   [['l', 'a', ' ', 'p', 'r', 'o', 'x', 'i', 'm', 'a', ' ', 's', 'e', 'm', 'a', 'n', 'a'], ['l', 'a', ' ', 's', 'e', 'm', 'a', 'n', 'a', ' ', 'p', 'a', 's', 'a', 'd', 'a'], ['e', 'l', ' ', 'p', 'r', 'o', 'x', 'i', 'm', 'o', ' ', 'a', 'n', 'o'], ['e', 'l', ' ', 'p', 'r', 'o', 'x', 'i', 'm', 'o', ' ', 'm', 'e', 's'], ['e', 'l', ' ', 'a', 'n', 'o', ' ', 'p', 'a', 's', 'a', 'd', 'o'], ['e', 'l', ' ', 'm', 'e', 's', ' ', 'p', 'a', 's', 'a', 'd', 'o'], ['e', 's', 't', 'a', ' ', 's', 'e', 'm', 'a', 'n', 'a'], ['e', 's', 't', 'e', ' ', 'm', 'i', 'n', 'u', 't', 'o'], ['s', 'e', 'p', 't', 'i', 'e', 'm', 'b', 'r', 'e'], ['d', 'i', 'c', 'i', 'e', 'm', 'b', 'r', 'e'], ['e', 's', 't', 'a', ' ', 'h', 'o', 'r', 'a'], ['m', 'i', 'e', 'r', 'c', 'o', 'l', 'e', 's'], ['n', 'o', 'v', 'i', 'e', 'm', 'b', 'r', 'e'], ['s', 'e', 't', 'i', 'e', 'm', 'b', 'r', 'e'], ['a', 'n', 't', 'e', 'a', 'y', 'e', 'r'], ['e', 's', 't', 'e', ' ', 'a', 'n', 'o'], ['e', 's', 't', 'e', ' ', 'm', 'e', 's'], ['s', 'e', 'g', 'u', 'n', 'd', 'o', 's'], ['d', 'o', 'm', 'i', 'n', 'g', 'o'], ['f', 'e', 'b', 'r', 'e', 'r', 'o'], ['m', 'i', 'n', 'u', 't', 'o', 's'], ['o', 'c', 't', 'u', 'b', 'r', 'e'], ['s', 'e', 'g', 'u', 'n', 'd', 'o'], ['s', 'e', 'm', 'a', 'n', 'a', 's'], ['v', 'i', 'e', 'r', 'n', 'e', 's'], ['a', 'g', 'o', 's', 't', 'o'], ['j', 'u', 'e', 'v', 'e', 's'], ['m', 'a', 'n', 'a', 'n', 'a'], ['m', 'a', 'r', 't', 'e', 's'], ['m', 'i', 'n', 'u', 't', 'o'], ['s', 'a', 'b', 'a', 'd', 'o'], ['s', 'e', 'm', 'a', 'n', 'a'], ['a', ' ', 'l', 'a', 's'], ['a', 'b', 'r', 'i', 'l'], ['a', 'h', 'o', 'r', 'a'], ['c', 'e', 'r', 'c', 'a'], ['e', 'n', 'e', 'r', 'o'], ['h', 'o', 'r', 'a', 's'], ['j', 'u', 'l', 'i', 'o'], ['j', 'u', 'n', 'i', 'o'], ['l', 'u', 'n', 'e', 's'], ['m', 'a', 'r', 'z', 'o'], ['m', 'e', 's', 'e', 's'], ['a', 'n', 'o', 's'], ['a', 'y', 'e', 'r'], ['d', 'i', 'a', 's'], ['h', 'a', 'c', 'e'], ['h', 'o', 'r', 'a'], ['m', 'a', 'y', 'o'], ['s', 'e', 'p', 't'], ['a', 'b', 'r'], ['a', 'g', 'o'], ['a', 'n', 'o'], ['d', 'e', 'l'], ['d', 'i', 'a'], ['d', 'i', 'c'], ['d', 'o', 'm'], ['e', 'n', 'e'], ['f', 'e', 'b'], ['g', 'm', 't'], ['h', 'o', 'y'], ['j', 'u', 'e'], ['j', 'u', 'l'], ['j', 'u', 'n'], ['l', 'u', 'n'], ['m', 'a', 'r'], ['m', 'a', 'y'], ['m', 'e', 's'], ['m', 'i', 'e'], ['m', 'i', 'n'], ['n', 'o', 'v'], ['o', 'c', 't'], ['s', 'a', 'b'], ['s', 'e', 'g'], ['s', 'e', 'm'], ['s', 'e', 'p'], ['s', 'e', 't'], ['u', 't', 'c'], ['v', 'i', 'e'], ['a', 'm'], ['d', 'e'], ['d', 'o'], ['e', 'n'], ['j', 'u'], ['l', 'u'], ['m', 'i'], ['p', 'm'], ['s', 'a'], ['v', 'i'], [' '], ['\''], ['+'], [','], ['-'], ['.'], ['/'], [':'], [';'], ['@'], ['['], [']'], ['a'], ['d'], ['h'], ['m'], ['s'], ['y'], ['z'], ['|']] }

/-- internal/data/es.go: `es_BO_Locale`. -/
def es_BOLang : LangData := es_BODict

/-- internal/data/es.go: `es_BR_Locale`. -/
def es_BRLang : LangData := es_BRDict

/-- internal/data/es.go: `es_BZ_Locale`. -/
def es_BZLang : LangData := es_BZDict

/-- internal/data/es.go: `es_CL_Locale`. -/
def es_CLLang : LangData := es_CLDict

/-- internal/data/es.go: `es_CO_Locale`. -/
def es_COLang : LangData := es_CODict

/-- internal/data/es.go: `es_CR_Locale`. -/
def es_CRLang : LangData := es_CRDict

/-- internal/data/es.go: `es_CU_Locale`. -/
def es_CULang : LangData := es_CUDict

/-- internal/data/es.go: `es_DO_Locale`. -/
def es_DOLang : LangData := es_DODict

/-- internal/data/es.go: `es_EA_Locale`. -/
def es_EALang : LangData := es_EADict

/-- internal/data/es.go: `es_EC_Locale`. -/
def es_ECLang : LangData := es_ECDict

/-- internal/data/es.go: `es_GQ_Locale`. -/
def es_GQLang : LangData := es_GQDict

/-- internal/data/es.go: `es_GT_Locale`. -/
def es_GTLang : LangData := es_GTDict

/-- internal/data/es.go: `es_HN_Locale`. -/
def es_HNLang : LangData := es_HNDict

/-- internal/data/es.go: `es_IC_Locale`. -/
def es_ICLang : LangData := es_ICDict

/-- internal/data/es.go: `es_MX_Locale`. -/
def es_MXLang : LangData := { es_MXDict with
  relativeRegexes :=
   [(.seqs [.lit ['e', 'n', ' '], .grp 1 (.number), .lit [' ', 'm', 'e', 's', 'e', 's']], [.lit ['i', 'n', ' '], .ref 1, .lit [' ', 'm', 'o', 'n', 't', 'h']]),
    (.seqs [.lit ['e', 'n', ' '], .grp 1 (.number), .lit [' ', 'd', 'i', 'a', 's']], [.lit ['i', 'n', ' '], .ref 1, .lit [' ', 'd', 'a', 'y']]),
    (.seqs [.lit ['e', 'n', ' '], .grp 1 (.number), .lit [' ', 'd', 'i', 'a']], [.lit ['i', 'n', ' '], .ref 1, .lit [' ', 'd', 'a', 'y']]),
    (.seqs [.lit ['e', 'n', ' '], .grp 1 (.number), .lit [' ', 'm', 'e', 's']], [.lit ['i', 'n', ' '], .ref 1, .lit [' ', 'm', 'o', 'n', 't', 'h']]),
    (.seqs [.lit ['e', 'n', ' '], .grp 1 (.number), .lit [' ', 'm', 'i', 'n']], [.lit ['i', 'n', ' '], .ref 1, .lit [' ', 'm', 'i', 'n', 'u', 't', 'e']]),
    (.seqs [.lit ['e', 'n', ' '], .grp 1 (.number), .lit [' ', 's', 'e', 'm']], [.lit ['i', 'n', ' '], .ref 1, .lit [' ', 'w', 'e', 'e', 'k']]),
    (.seqs [.lit ['e', 'n', ' '], .grp 1 (.number), .lit [' ', 'a']], [.lit ['i', 'n', ' '], .ref 1, .lit [' ', 'y', 'e', 'a', 'r']]),
    (.seqs [.lit ['e', 'n', ' '], .grp 1 (.number), .lit [' ', 'h']], [.lit ['i', 'n', ' '], .ref 1, .lit [' ', 'h', 'o', 'u', 'r']]),
    (.seqs [.lit ['e', 'n', ' '], .grp 1 (.number), .lit [' ', 'm']], [.lit ['i', 'n', ' '], .ref 1, .lit [' ', 'm', 'o', 'n', 't', 'h']]),
    (.seqs [.lit ['e', 'n', ' '], .grp 1 (.number), .lit [' ', 'n']], [.lit ['i', 'n', ' '], .ref 1, .lit [' ', 'h', 'o', 'u', 'r']]),
    (.seqs [.lit ['e', 'n', ' '], .grp 1 (.number), .lit [' ', 's']], [.lit ['i', 'n', ' '], .ref 1, .lit [' ', 's', 'e', 'c', 'o', 'n', 'd']])],
  rxCombined := some (.seqs [.grp 1 (.alts [.bos, .cls true [.letter, .mark, .digit], .lit ['_']]), .grp 2 (.alts [.seqs [.lit ['d', 'e', 'n', 't', 'r', 'o', ' ', 'd', 'e', ' '], .number, .lit [' ', 's', 'e', 'g', 'u', 'n', 'd', 'o', 's']], .seqs [.lit ['d', 'e', 'n', 't', 'r', 'o', ' ', 'd', 'e', ' '], .number, .lit [' ', 'm', 'i', 'n', 'u', 't', 'o', 's']], .seqs [.lit ['d', 'e', 'n', 't', 'r', 'o', ' ', 'd', 'e', ' '], .number, .lit [' ', 's', 'e', 'g', 'u', 'n', 'd', 'o']], .seqs [.lit ['d', 'e', 'n', 't', 'r', 'o', ' ', 'd', 'e', ' '], .number, .lit [' ', 's', 'e', 'm', 'a', 'n', 'a', 's']], .seqs [.lit ['d', 'e', 'n', 't', 'r', 'o', ' ', 'd', 'e', ' '], .number, .lit [' ', 'm', 'i', 'n', 'u', 't', 'o']], .seqs [.lit ['d', 'e', 'n', 't', 'r', 'o', ' ', 'd', 'e', ' '], .number, .lit [' ', 's', 'e', 'm', 'a', 'n', 'a']], .seqs [.lit ['d', 'e', 'n', 't', 'r', 'o', ' ', 'd', 'e', ' '], .number, .lit [' ', 'h', 'o', 'r', 'a', 's']], .seqs [.lit ['d', 'e', 'n', 't', 'r', 'o', ' ', 'd', 'e', ' '], .number, .lit [' ', 'm', 'e', 's', 'e', 's']], .seqs [.lit ['d', 'e', 'n', 't', 'r', 'o', ' ', 'd', 'e', ' '], .number, .lit [' ', 'a', 'n', 'o', 's']], .seqs [.lit ['d', 'e', 'n', 't', 'r', 'o', ' ', 'd', 'e', ' '], .number, .lit [' ', 'd', 'i', 'a', 's']], .seqs [.lit ['d', 'e', 'n', 't', 'r', 'o', ' ', 'd', 'e', ' '], .number, .lit [' ', 'h', 'o', 'r', 'a']], .seqs [.lit ['d', 'e', 'n', 't', 'r', 'o', ' ', 'd', 'e', ' '], .number, .lit [' ', 'a', 'n', 'o']], .seqs [.lit ['d', 'e', 'n', 't', 'r', 'o', ' ', 'd', 'e', ' '], .number, .lit [' ', 'd', 'i', 'a']], .seqs [.lit ['d', 'e', 'n', 't', 'r', 'o', ' ', 'd', 'e', ' '], .number, .lit [' ', 'm', 'e', 's']], .seqs [.lit ['d', 'e', 'n', 't', 'r', 'o', ' ', 'd', 'e', ' '], .number, .lit [' ', 'm', 'i', 'n']], .seqs [.lit ['d', 'e', 'n', 't', 'r', 'o', ' ', 'd', 'e', ' '], .number, .lit [' ', 's', 'e', 'm']], .seqs [.lit ['h', 'a', 'c', 'e', ' '], .number, .lit [' ', 's', 'e', 'g', 'u', 'n', 'd', 'o', 's']], .seqs [.lit ['h', 'a', 'c', 'e', ' '], .number, .lit [' ', 'm', 'i', 'n', 'u', 't', 'o', 's']], .seqs [.lit ['h', 'a', 'c', 'e', ' '], .number, .lit [' ', 's', 'e', 'g', 'u', 'n', 'd', 'o']], .seqs [.lit ['h', 'a', 'c', 'e', ' '], .number, .lit [' ', 's', 'e', 'm', 'a', 'n', 'a', 's']], .seqs [.lit ['d', 'e', 'n', 't', 'r', 'o', ' ', 'd', 'e', ' '], .number, .lit [' ', 'a']], .seqs [.lit ['d', 'e', 'n', 't', 'r', 'o', ' ', 'd', 'e', ' '], .number, .lit [' ', 'h']], .seqs [.lit ['d', 'e', 'n', 't', 'r', 'o', ' ', 'd', 'e', ' '], .number, .lit [' ', 'm']], .seqs [.lit ['d', 'e', 'n', 't', 'r', 'o', ' ', 'd', 'e', ' '], .number, .lit [' ', 's']], .seqs [.lit ['h', 'a', 'c', 'e', ' '], .number, .lit [' ', 'm', 'i', 'n', 'u', 't', 'o']], .seqs [.lit ['h', 'a', 'c', 'e', ' '], .number, .lit [' ', 's', 'e', 'm', 'a', 'n', 'a']], .seqs [.lit ['h', 'a', 'c', 'e', ' '], .number, .lit [' ', 'h', 'o', 'r', 'a', 's']], .seqs [.lit ['h', 'a', 'c', 'e', ' '], .number, .lit [' ', 'm', 'e', 's', 'e', 's']], .seqs [.lit ['h', 'a', 'c', 'e', ' '], .number, .lit [' ', 'a', 'n', 'o', 's']], .seqs [.lit ['h', 'a', 'c', 'e', ' '], .number, .lit [' ', 'd', 'i', 'a', 's']], .seqs [.lit ['h', 'a', 'c', 'e', ' '], .number, .lit [' ', 'h', 'o', 'r', 'a']], .seqs [.lit ['e', 'n', ' '], .number, .lit [' ', 'm', 'e', 's', 'e', 's']], .seqs [.lit ['h', 'a', 'c', 'e', ' '], .number, .lit [' ', 'a', 'n', 'o']], .seqs [.lit ['h', 'a', 'c', 'e', ' '], .number, .lit [' ', 'd', 'i', 'a']], .seqs [.lit ['h', 'a', 'c', 'e', ' '], .number, .lit [' ', 'm', 'e', 's']], .seqs [.lit ['h', 'a', 'c', 'e', ' '], .number, .lit [' ', 'm', 'i', 'n']], .seqs [.lit ['h', 'a', 'c', 'e', ' '], .number, .lit [' ', 's', 'e', 'm']], .seqs [.lit ['e', 'n', ' '], .number, .lit [' ', 'd', 'i', 'a', 's']], .seqs [.lit ['e', 'n', ' '], .number, .lit [' ', 'd', 'i', 'a']], .seqs [.lit ['e', 'n', ' '], .number, .lit [' ', 'm', 'e', 's']], .seqs [.lit ['e', 'n', ' '], .number, .lit [' ', 'm', 'i', 'n']], .seqs [.lit ['e', 'n', ' '], .number, .lit [' ', 's', 'e', 'm']], .seqs [.lit ['h', 'a', 'c', 'e', ' '], .number, .lit [' ', 'a']], .seqs [.lit ['h', 'a', 'c', 'e', ' '], .number, .lit [' ', 'h']], .seqs [.lit ['h', 'a', 'c', 'e', ' '], .number, .lit [' ', 'm']], .seqs [.lit ['h', 'a', 'c', 'e', ' '], .number, .lit [' ', 's']], .seqs [.lit ['e', 'n', ' '], .number, .lit [' ', 'a']], .seqs [.lit ['e', 'n', ' '], .number, .lit [' ', 'h']], .seqs [.lit ['e', 'n', ' '], .number, .lit [' ', 'm']], .seqs [.lit ['e', 'n', ' '], .number, .lit [' ', 'n']], .seqs [.lit ['e', 'n', ' '], .number, .lit [' ', 's']]]), .grp 3 (.alts [.eos, .cls true [.letter, .mark, .digit], .lit ['_']])], 3),
  rxExact := some (.seqs [.bos, .grp 1 (.alts [.seqs [.lit ['d', 'e', 'n', 't', 'r', 'o', ' ', 'd', 'e', ' '], .number, .lit [' ', 's', 'e', 'g', 'u', 'n', 'd', 'o', 's']], .seqs [.lit ['d', 'e', 'n', 't', 'r', 'o', ' ', 'd', 'e', ' '], .number, .lit [' ', 'm', 'i', 'n', 'u', 't', 'o', 's']], .seqs [.lit ['d', 'e', 'n', 't', 'r', 'o', ' ', 'd', 'e', ' '], .number, .lit [' ', 's', 'e', 'g', 'u', 'n', 'd', 'o']], .seqs [.lit ['d', 'e', 'n', 't', 'r', 'o', ' ', 'd', 'e', ' '], .number, .lit [' ', 's', 'e', 'm', 'a', 'n', 'a', 's']], .seqs [.lit ['d', 'e', 'n', 't', 'r', 'o', ' ', 'd', 'e', ' '], .number, .lit [' ', 'm', 'i', 'n', 'u', 't', 'o']], .seqs [.lit ['d', 'e', 'n', 't', 'r', 'o', ' ', 'd', 'e', ' '], .number, .lit [' ', 's', 'e', 'm', 'a', 'n', 'a']], .seqs [.lit ['d', 'e', 'n', 't', 'r', 'o', ' ', 'd', 'e', ' '], .number, .lit [' ', 'h', 'o', 'r', 'a', 's']], .seqs [.lit ['d', 'e', 'n', 't', 'r', 'o', ' ', 'd', 'e', ' '], .number, .lit [' ', 'm', 'e', 's', 'e', 's']], .seqs [.lit ['d', 'e', 'n', 't', 'r', 'o', ' ', 'd', 'e', ' '], .number, .lit [' ', 'a', 'n', 'o', 's']], .seqs [.lit ['d', 'e', 'n', 't', 'r', 'o', ' ', 'd', 'e', ' '], .number, .lit [' ', 'd', 'i', 'a', 's']], .seqs [.lit ['d', 'e', 'n', 't', 'r', 'o', ' ', 'd', 'e', ' '], .number, .lit [' ', 'h', 'o', 'r', 'a']], .seqs [.lit ['d', 'e', 'n', 't', 'r', 'o', ' ', 'd', 'e', ' '], .number, .lit [' ', 'a', 'n', 'o']], .seqs [.lit ['d', 'e', 'n', 't', 'r', 'o', ' ', 'd', 'e', ' '], .number, .lit [' ', 'd', 'i', 'a']], .seqs [.lit ['d', 'e', 'n', 't', 'r', 'o', ' ', 'd', 'e', ' '], .number, .lit [' ', 'm', 'e', 's']], .seqs [.lit ['d', 'e', 'n', 't', 'r', 'o', ' ', 'd', 'e', ' '], .number, .lit [' ', 'm', 'i', 'n']], .seqs [.lit ['d', 'e', 'n', 't', 'r', 'o', ' ', 'd', 'e', ' '], .number, .lit [' ', 's', 'e', 'm']], .seqs [.lit ['h', 'a', 'c', 'e', ' '], .number, .lit [' ', 's', 'e', 'g', 'u', 'n', 'd', 'o', 's']], .seqs [.lit ['h', 'a', 'c', 'e', ' '], .number, .lit [' ', 'm', 'i', 'n', 'u', 't', 'o', 's']], .seqs [.lit ['h', 'a', 'c', 'e', ' '], .number, .lit [' ', 's', 'e', 'g', 'u', 'n', 'd', 'o']], .seqs [.lit ['h', 'a', 'c', 'e', ' '], .number, .lit [' ', 's', 'e', 'm', 'a', 'n', 'a', 's']], .seqs [.lit ['d', 'e', 'n', 't', 'r', 'o', ' ', 'd', 'e', ' '], .number, .lit [' ', 'a']], .seqs [.lit ['d', 'e', 'n', 't', 'r', 'o', ' ', 'd', 'e', ' '], .number, .lit [' ', 'h']], .seqs [.lit ['d', 'e', 'n', 't', 'r', 'o', ' ', 'd', 'e', ' '], .number, .lit [' ', 'm']], .seqs [.lit ['d', 'e', 'n', 't', 'r', 'o', ' ', 'd', 'e', ' '], .number, .lit [' ', 's']], .seqs [.lit ['h', 'a', 'c', 'e', ' '], .number, .lit [' ', 'm', 'i', 'n', 'u', 't', 'o']], .seqs [.lit ['h', 'a', 'c', 'e', ' '], .number, .lit [' ', 's', 'e', 'm', 'a', 'n', 'a']], .seqs [.lit ['h', 'a', 'c', 'e', ' '], .number, .lit [' ', 'h', 'o', 'r', 'a', 's']], .seqs [.lit ['h', 'a', 'c', 'e', ' '], .number, .lit [' ', 'm', 'e', 's', 'e', 's']], .seqs [.lit ['h', 'a', 'c', 'e', ' '], .number, .lit [' ', 'a', 'n', 'o', 's']], .seqs [.lit ['h', 'a', 'c', 'e', ' '], .number, .lit [' ', 'd', 'i', 'a', 's']], .seqs [.lit ['h', 'a', 'c', 'e', ' '], .number, .lit [' ', 'h', 'o', 'r', 'a']], .seqs [.lit ['e', 'n', ' '], .number, .lit [' ', 'm', 'e', 's', 'e', 's']], .seqs [.lit ['h', 'a', 'c', 'e', ' '], .number, .lit [' ', 'a', 'n', 'o']], .seqs [.lit ['h', 'a', 'c', 'e', ' '], .number, .lit [' ', 'd', 'i', 'a']], .seqs [.lit ['h', 'a', 'c', 'e', ' '], .number, .lit [' ', 'm', 'e', 's']], .seqs [.lit ['h', 'a', 'c', 'e', ' '], .number, .lit [' ', 'm', 'i', 'n']], .seqs [.lit ['h', 'a', 'c', 'e', ' '], .number, .lit [' ', 's', 'e', 'm']], .seqs [.lit ['e', 'n', ' '], .number, .lit [' ', 'd', 'i', 'a', 's']], .seqs [.lit ['e', 'n', ' '], .number, .lit [' ', 'd', 'i', 'a']], .seqs [.lit ['e', 'n', ' '], .number, .lit [' ', 'm', 'e', 's']], .seqs [.lit ['e', 'n', ' '], .number, .lit [' ', 'm', 'i', 'n']], .seqs [.lit ['e', 'n', ' '], .number, .lit [' ', 's', 'e', 'm']], .seqs [.lit ['h', 'a', 'c', 'e', ' '], .number, .lit [' ', 'a']], .seqs [.lit ['h', 'a', 'c', 'e', ' '], .number, .lit [' ', 'h']], .seqs [.lit ['h', 'a', 'c', 'e', ' '], .number, .lit [' ', 'm']], .seqs [.lit ['h', 'a', 'c', 'e', ' '], .number, .lit [' ', 's']], .seqs [.lit ['e', 'n', ' '], .number, .lit [' ', 'a']], .seqs [.lit ['e', 'n', ' '], .number, .lit [' ', 'h']], .seqs [.lit ['e', 'n', ' '], .number, .lit [' ', 'm']], .seqs [.lit ['e', 'n', ' '], .number, .lit [' ', 'n']], .seqs [.lit ['e', 'n', ' '], .number, .lit [' ', 's']]]), .eos]),
  knownWords :=
   [['l', 'a', ' ', 'p', 'r', 'o', 'x', 'i', 'm', 'a', ' ', 's', 'e', 'm', 'a', 'n', 'a'], ['l', 'a', ' ', 's', 'e', 'm', 'a', 'n', 'a', ' ', 'p', 'r', 'o', 'x', 'i', 'm', 'a'], ['l', 'a', ' ', 's', 'e', 'm', 'a', 'n', 'a', ' ', 'p', 'a', 's', 'a', 'd', 'a'], ['e', 'l', ' ', 'a', 'n', 'o', ' ', 'p', 'r', 'o', 'x', 'i', 'm', 'o'], ['e', 'l', ' ', 'm', 'e', 's', ' ', 'p', 'r', 'o', 'x', 'i', 'm', 'o'], ['e', 'l', ' ', 'p', 'r', 'o', 'x', 'i', 'm', 'o', ' ', 'a', 'n', 'o'], ['e', 'l', ' ', 'p', 'r', 'o', 'x', 'i', 'm', 'o', ' ', 'm', 'e', 's'], ['e', 'l', ' ', 'a', 'n', 'o', ' ', 'p', 'a', 's', 'a', 'd', 'o'], ['e', 'l', ' ', 'm', 'e', 's', ' ', 'p', 'a', 's', 'a', 'd', 'o'], ['e', 's', 't', 'a', ' ', 's', 'e', 'm', 'a', 'n', 'a'], ['e', 's', 't', 'e', ' ', 'm', 'i', 'n', 'u', 't', 'o'], ['s', 'e', 'p', 't', 'i', 'e', 'm', 'b', 'r', 'e'], ['d', 'i', 'c', 'i', 'e', 'm', 'b', 'r', 'e'], ['e', 's', 't', 'a', ' ', 'h', 'o', 'r', 'a'], ['m', 'i', 'e', 'r', 'c', 'o', 'l', 'e', 's'], ['n', 'o', 'v', 'i', 'e', 'm', 'b', 'r', 'e'], ['s', 'e', 't', 'i', 'e', 'm', 'b', 'r', 'e'], ['a', 'n', 't', 'e', 'a', 'y', 'e', 'r'], ['e', 's', 't', 'e', ' ', 'a', 'n', 'o'], ['e', 's', 't', 'e', ' ', 'm', 'e', 's'], ['s', 'e', 'g', 'u', 'n', 'd', 'o', 's'], ['d', 'o', 'm', 'i', 'n', 'g', 'o'], ['f', 'e', 'b', 'r', 'e', 'r', 'o'], ['m', 'i', 'n', 'u', 't', 'o', 's'], ['o', 'c', 't', 'u', 'b', 'r', 'e'], ['s', 'e', 'g', 'u', 'n', 'd', 'o'], ['s', 'e', 'm', 'a', 'n', 'a', 's'], ['v', 'i', 'e', 'r', 'n', 'e', 's'], ['a', 'g', 'o', 's', 't', 'o'], ['j', 'u', 'e', 'v', 'e', 's'], ['m', 'a', 'n', 'a', 'n', 'a'], ['m', 'a', 'r', 't', 'e', 's'], ['m', 'i', 'n', 'u', 't', 'o'], ['s', 'a', 'b', 'a', 'd', 'o'], ['s', 'e', 'm', 'a', 'n', 'a'], ['a', ' ', 'l', 'a', 's'], ['a', 'b', 'r', 'i', 'l'], ['a', 'h', 'o', 'r', 'a'], ['c', 'e', 'r', 'c', 'a'], ['e', 'n', 'e', 'r', 'o'], ['h', 'o', 'r', 'a', 's'], ['j', 'u', 'l', 'i', 'o'], ['j', 'u', 'n', 'i', 'o'], ['l', 'u', 'n', 'e', 's'], ['m', 'a', 'r', 'z', 'o'], ['m', 'e', 's', 'e', 's'], ['a', 'n', 'o', 's'], ['a', 'y', 'e', 'r'], ['d', 'i', 'a', 's'], ['h', 'a', 'c', 'e'], ['h', 'o', 'r', 'a'], ['m', 'a', 'y', 'o'], ['s', 'e', 'p', 't'], ['a', 'b', 'r'], ['a', 'g', 'o'], ['a', 'n', 'o'], ['d', 'e', 'l'], ['d', 'i', 'a'], ['d', 'i', 'c'], ['d', 'o', 'm'], ['e', 'n', 'e'], ['f', 'e', 'b'], ['g', 'm', 't'], ['h', 'o', 'y'], ['j', 'u', 'e'], ['j', 'u', 'l'], ['j', 'u', 'n'], ['l', 'u', 'n'], ['m', 'a', 'r'], ['m', 'a', 'y'], ['m', 'e', 's'], ['m', 'i', 'e'], ['m', 'i', 'n'], ['n', 'o', 'v'], ['o', 'c', 't'], ['s', 'a', 'b'], ['s', 'e', 'm'], ['s', 'e', 'p'], ['s', 'e', 't'], ['u', 't', 'c'], ['v', 'i', 'e'], ['a', 'm'], ['d', 'e'], ['d', 'o'], ['e', 'n'], ['j', 'u'], ['l', 'u'], ['m', 'i'], ['p', 'm'], ['s', 'a'], ['v', 'i'], [' '], ['\''], ['+'], [','], ['-'], ['.'], ['/'], [':'], [';'], ['@'], ['['], [']'], ['a'], ['d'], ['h'], ['m'], ['s'], ['y'], ['z'], ['|']] }

/-- internal/data/es.go: `es_NI_Locale`. -/
def es_NILang : LangData := es_NIDict

/-- internal/data/es.go: `es_PA_Locale`. -/
def es_PALang : LangData := es_PADict

/-- internal/data/es.go: `es_PE_Locale`. -/
def es_PELang : LangData := es_PEDict

/-- internal/data/es.go: `es_PH_Locale`. -/
def es_PHLang : LangData := es_PHDict

/-- internal/data/es.go: `es_PR_Locale`. -/
def es_PRLang : LangData := es_PRDict

/-- internal/data/es.go: `es_PY_Locale`. -/
def es_PYLang : LangData := { es_PYDict with
  relativeRegexes :=
   [(.seqs [.lit ['d', 'e', 'n', 't', 'r', 'o', ' ', 'd', 'e', ' '], .grp 1 (.number), .lit [' ', 's', 'e', 'g']], [.lit ['i', 'n', ' '], .ref 1, .lit [' ', 's', 'e', 'c', 'o', 'n', 'd']]),
    (.seqs [.lit ['h', 'a', 'c', 'e', ' '], .grp 1 (.number), .lit [' ', 's', 'e', 'g']], [.ref 1, .lit [' ', 's', 'e', 'c', 'o', 'n', 'd', ' ', 'a', 'g', 'o']])],
  rxCombined := some (.seqs [.grp 1 (.alts [.bos, .cls true [.letter, .mark, .digit], .lit ['_']]), .grp 2 (.alts [.seqs [.lit ['d', 'e', 'n', 't', 'r', 'o', ' ', 'd', 'e', ' '], .number, .lit [' ', 's', 'e', 'g', 'u', 'n', 'd', 'o', 's']], .seqs [.lit ['d', 'e', 'n', 't', 'r', 'o', ' ', 'd', 'e', ' '], .number, .lit [' ', 'm', 'i', 'n', 'u', 't', 'o', 's']], .seqs [.lit ['d', 'e', 'n', 't', 'r', 'o', ' ', 'd', 'e', ' '], .number, .lit [' ', 's', 'e', 'g', 'u', 'n', 'd', 'o']], .seqs [.lit ['d', 'e', 'n', 't', 'r', 'o', ' ', 'd', 'e', ' '], .number, .lit [' ', 's', 'e', 'm', 'a', 'n', 'a', 's']], .seqs [.lit ['d', 'e', 'n', 't', 'r', 'o', ' ', 'd', 'e', ' '], .number, .lit [' ', 'm', 'i', 'n', 'u', 't', 'o']], .seqs [.lit ['d', 'e', 'n', 't', 'r', 'o', ' ', 'd', 'e', ' '], .number, .lit [' ', 's', 'e', 'm', 'a', 'n', 'a']], .seqs [.lit ['d', 'e', 'n', 't', 'r', 'o', ' ', 'd', 'e', ' '], .number, .lit [' ', 'h', 'o', 'r', 'a', 's']], .seqs [.lit ['d', 'e', 'n', 't', 'r', 'o', ' ', 'd', 'e', ' '], .number, .lit [' ', 'm', 'e', 's', 'e', 's']], .seqs [.lit ['d', 'e', 'n', 't', 'r', 'o', ' ', 'd', 'e', ' '], .number, .lit [' ', 'a', 'n', 'o', 's']], .seqs [.lit ['d', 'e', 'n', 't', 'r', 'o', ' ', 'd', 'e', ' '], .number, .lit [' ', 'd', 'i', 'a', 's']], .seqs [.lit ['d', 'e', 'n', 't', 'r', 'o', ' ', 'd', 'e', ' '], .number, .lit [' ', 'h', 'o', 'r', 'a']], .seqs [.lit ['d', 'e', 'n', 't', 'r', 'o', ' ', 'd', 'e', ' '], .number, .lit [' ', 'a', 'n', 'o']], .seqs [.lit ['d', 'e', 'n', 't', 'r', 'o', ' ', 'd', 'e', ' '], .number, .lit [' ', 'd', 'i', 'a']], .seqs [.lit ['d', 'e', 'n', 't', 'r', 'o', ' ', 'd', 'e', ' '], .number, .lit [' ', 'm', 'e', 's']], .seqs [.lit ['d', 'e', 'n', 't', 'r', 'o', ' ', 'd', 'e', ' '], .number, .lit [' ', 'm', 'i', 'n']], .seqs [.lit ['d', 'e', 'n', 't', 'r', 'o', ' ', 'd', 'e', ' '], .number, .lit [' ', 's', 'e', 'g']], .seqs [.lit ['d', 'e', 'n', 't', 'r', 'o', ' ', 'd', 'e', ' '], .number, .lit [' ', 's', 'e', 'm']], .seqs [.lit ['h', 'a', 'c', 'e', ' '], .number, .lit [' ', 's', 'e', 'g', 'u', 'n', 'd', 'o', 's']], .seqs [.lit ['h', 'a', 'c', 'e', ' '], .number, .lit [' ', 'm', 'i', 'n', 'u', 't', 'o', 's']], .seqs [.lit ['h', 'a', 'c', 'e', ' '], .number, .lit [' ', 's', 'e', 'g', 'u', 'n', 'd', 'o']], .seqs [.lit ['h', 'a', 'c', 'e', ' '], .number, .lit [' ', 's', 'e', 'm', 'a', 'n', 'a', 's']], .seqs [.lit ['d', 'e', 'n', 't', 'r', 'o', ' ', 'd', 'e', ' '], .number, .lit [' ', 'a']], .seqs [.lit ['d', 'e', 'n', 't', 'r', 'o', ' ', 'd', 'e', ' '], .number, .lit [' ', 'h']], .seqs [.lit ['d', 'e', 'n', 't', 'r', 'o', ' ', 'd', 'e', ' '], .number, .lit [' ', 'm']], .seqs [.lit ['d', 'e', 'n', 't', 'r', 'o', ' ', 'd', 'e', ' '], .number, .lit [' ', 's']], .seqs [.lit ['h', 'a', 'c', 'e', ' '], .number, .lit [' ', 'm', 'i', 'n', 'u', 't', 'o']], .seqs [.lit ['h', 'a', 'c', 'e', ' '], .number, .lit [' ', 's', 'e', 'm', 'a', 'n', 'a']], .seqs [.lit ['h', 'a', 'c', 'e', ' '], .number, .lit [' ', 'h', 'o', 'r', 'a', 's']], .seqs [.lit ['h', 'a', 'c', 'e', ' '], .number, .lit [' ', 'm', 'e', 's', 'e', 's']], .seqs [.lit ['h', 'a', 'c', 'e', ' '], .number, .lit [' ', 'a', 'n', 'o', 's']], .seqs [.lit ['h', 'a', 'c', 'e', ' '], .number, .lit [' ', 'd', 'i', 'a', 's']], .seqs [.lit ['h', 'a', 'c', 'e', ' '], .number, .lit [' ', 'h', 'o', 'r', 'a']], .seqs [.lit ['h', 'a', 'c', 'e', ' '], .number, .lit [' ', 'a', 'n', 'o']], .seqs [.lit ['h', 'a', 'c', 'e', ' '], .number, .lit [' ', 'd', 'i', 'a']], .seqs [.lit ['h', 'a', 'c', 'e', ' '], .number, .lit [' ', 'm', 'e', 's']], .seqs [.lit ['h', 'a', 'c', 'e', ' '], .number, .lit [' ', 'm', 'i', 'n']], .seqs [.lit ['h', 'a', 'c', 'e', ' '], .number, .lit [' ', 's', 'e', 'g']], .seqs [.lit ['h', 'a', 'c', 'e', ' '], .number, .lit [' ', 's', 'e', 'm']], .seqs [.lit ['h', 'a', 'c', 'e', ' '], .number, .lit [' ', 'a']], .seqs [.lit ['h', 'a', 'c', 'e', ' '], .number, .lit [' ', 'h']], .seqs [.lit ['h', 'a', 'c', 'e', ' '], .number, .lit [' ', 'm']], .seqs [.lit ['h', 'a', 'c', 'e', ' '], .number, .lit [' ', 's']]]), .grp 3 (.alts [.eos, .cls true [.letter, .mark, .digit], .lit ['_']])], 3),
  rxExact := some (.seqs [.bos, .grp 1 (.alts [.seqs [.lit ['d', 'e', 'n', 't', 'r', 'o', ' ', 'd', 'e', ' '], .number, .lit [' ', 's', 'e', 'g', 'u', 'n', 'd', 'o', 's']], .seqs [.lit ['d', 'e', 'n', 't', 'r', 'o', ' ', 'd', 'e', ' '], .number, .lit [' ', 'm', 'i', 'n', 'u', 't', 'o', 's']], .seqs [.lit ['d', 'e', 'n', 't', 'r', 'o', ' ', 'd', 'e', ' '], .number, .lit [' ', 's', 'e', 'g', 'u', 'n', 'd', 'o']], .seqs [.lit ['d', 'e', 'n', 't', 'r', 'o', ' ', 'd', 'e', ' '], .number, .lit [' ', 's', 'e', 'm', 'a', 'n', 'a', 's']], .seqs [.lit ['d', 'e', 'n', 't', 'r', 'o', ' ', 'd', 'e', ' '], .number, .lit [' ', 'm', 'i', 'n', 'u', 't', 'o']], .seqs [.lit ['d', 'e', 'n', 't', 'r', 'o', ' ', 'd', 'e', ' '], .number, .lit [' ', 's', 'e', 'm', 'a', 'n', 'a']], .seqs [.lit ['d', 'e', 'n', 't', 'r', 'o', ' ', 'd', 'e', ' '], .number, .lit [' ', 'h', 'o', 'r', 'a', 's']], .seqs [.lit ['d', 'e', 'n', 't', 'r', 'o', ' ', 'd', 'e', ' '], .number, .lit [' ', 'm', 'e', 's', 'e', 's']], .seqs [.lit ['d', 'e', 'n', 't', 'r', 'o', ' ', 'd', 'e', ' '], .number, .lit [' ', 'a', 'n', 'o', 's']], .seqs [.lit ['d', 'e', 'n', 't', 'r', 'o', ' ', 'd', 'e', ' '], .number, .lit [' ', 'd', 'i', 'a', 's']], .seqs [.lit ['d', 'e', 'n', 't', 'r', 'o', ' ', 'd', 'e', ' '], .number, .lit [' ', 'h', 'o', 'r', 'a']], .seqs [.lit ['d', 'e', 'n', 't', 'r', 'o', ' ', 'd', 'e', ' '], .number, .lit [' ', 'a', 'n', 'o']], .seqs [.lit ['d', 'e', 'n', 't', 'r', 'o', ' ', 'd', 'e', ' '], .number, .lit [' ', 'd', 'i', 'a']], .seqs [.lit ['d', 'e', 'n', 't', 'r', 'o', ' ', 'd', 'e', ' '], .number, .lit [' ', 'm', 'e', 's']], .seqs [.lit ['d', 'e', 'n', 't', 'r', 'o', ' ', 'd', 'e', ' '], .number, .lit [' ', 'm', 'i', 'n']], .seqs [.lit ['d', 'e', 'n', 't', 'r', 'o', ' ', 'd', 'e', ' '], .number, .lit [' ', 's', 'e', 'g']], .seqs [.lit ['d', 'e', 'n', 't', 'r', 'o', ' ', 'd', 'e', ' '], .number, .lit [' ', 's', 'e', 'm']], .seqs [.lit ['h', 'a', 'c', 'e', ' '], .number, .lit [' ', 's', 'e', 'g', 'u', 'n', 'd', 'o', 's']], .seqs [.lit ['h', 'a', 'c', 'e', ' '], .number, .lit [' ', 'm', 'i', 'n', 'u', 't', 'o', 's']], .seqs [.lit ['h', 'a', 'c', 'e', ' '], .number, .lit [' ', 's', 'e', 'g', 'u', 'n', 'd', 'o']], .seqs [.lit ['h', 'a', 'c', 'e', ' '], .number, .lit [' ', 's', 'e', 'm', 'a', 'n', 'a', 's']], .seqs [.lit ['d', 'e', 'n', 't', 'r', 'o', ' ', 'd', 'e', ' '], .number, .lit [' ', 'a']], .seqs [.lit ['d', 'e', 'n', 't', 'r', 'o', ' ', 'd', 'e', ' '], .number, .lit [' ', 'h']], .seqs [.lit ['d', 'e', 'n', 't', 'r', 'o', ' ', 'd', 'e', ' '], .number, .lit [' ', 'm']], .seqs [.lit ['d', 'e', 'n', 't', 'r', 'o', ' ', 'd', 'e', ' '], .number, .lit [' ', 's']], .seqs [.lit ['h', 'a', 'c', 'e', ' '], .number, .lit [' ', 'm', 'i', 'n', 'u', 't', 'o']], .seqs [.lit ['h', 'a', 'c', 'e', ' '], .number, .lit [' ', 's', 'e', 'm', 'a', 'n', 'a']], .seqs [.lit ['h', 'a', 'c', 'e', ' '], .number, .lit [' ', 'h', 'o', 'r', 'a', 's']], .seqs [.lit ['h', 'a', 'c', 'e', ' '], .number, .lit [' ', 'm', 'e', 's', 'e', 's']], .seqs [.lit ['h', 'a', 'c', 'e', ' '], .number, .lit [' ', 'a', 'n', 'o', 's']], .seqs [.lit ['h', 'a', 'c', 'e', ' '], .number, .lit [' ', 'd', 'i', 'a', 's']], .seqs [.lit ['h', 'a', 'c', 'e', ' '], .number, .lit [' ', 'h', 'o', 'r', 'a']], .seqs [.lit ['h', 'a', 'c', 'e', ' '], .number, .lit [' ', 'a', 'n', 'o']], .seqs [.lit ['h', 'a', 'c', 'e', ' '], .number, .lit [' ', 'd', 'i', 'a']], .seqs [.lit ['h', 'a', 'c', 'e', ' '], .number, .lit [' ', 'm', 'e', 's']], .seqs [.lit ['h', 'a', 'c', 'e', ' '], .number, .lit [' ', 'm', 'i', 'n']], .seqs [.lit ['h', 'a', 'c', 'e', ' '], .number, .lit [' ', 's', 'e', 'g']], .seqs [.lit ['h', 'a', 'c', 'e', ' '], .number, .lit [' ', 's', 'e', 'm']], .seqs [.lit ['h', 'a', 'c', 'e', ' '], .number, .lit [' ', 'a']], .seqs [.lit ['h', 'a', 'c', 'e', ' '], .number, .lit [' ', 'h']], .seqs [.lit ['h', 'a', 'c', 'e', ' '], .number, .lit [' ', 'm']], .seqs [.lit ['h', 'a', 'c', 'e', ' '], .number, .lit [' ', 's']]]), .eos]),
  knownWords :=
   [['l', 'a', ' ', 'p', 'r', 'o', 'x', 'i', 'm', 'a', ' ', 's', 'e', 'm', 'a', 'n', 'a'], ['l', 'a', ' ', 's', 'e', 'm', 'a', 'n', 'a', ' ', 'p', 'a', 's', 'a', 'd', 'a'], ['e', 'l', ' ', 'p', 'r', 'o', 'x', 'i', 'm', 'o', ' ', 'a', 'n', 'o'], ['e', 'l', ' ', 'p', 'r', 'o', 'x', 'i', 'm', 'o', ' ', 'm', 'e', 's'], ['e', 'l', ' ', 'a', 'n', 'o', ' ', 'p', 'a', 's', 'a', 'd', 'o'], ['e', 'l', ' ', 'm', 'e', 's', ' ', 'p', 'a', 's', 'a', 'd', 'o'], ['e', 's', 't', 'a', ' ', 's', 'e', 'm', 'a', 'n', 'a'], ['e', 's', 't', 'e', ' ', 'm', 'i', 'n', 'u', 't', 'o'], ['s', 'e', 'p', 't', 'i', 'e', 'm', 'b', 'r', 'e'], ['d', 'i', 'c', 'i', 'e', 'm', 'b', 'r', 'e'], ['e', 's', 't', 'a', ' ', 'h', 'o', 'r', 'a'], ['m', 'i', 'e', 'r', 'c', 'o', 'l', 'e', 's'], ['n', 'o', 'v', 'i', 'e', 'm', 'b', 'r', 'e'], ['s', 'e', 't', 'i', 'e', 'm', 'b', 'r', 'e'], ['a', 'n', 't', 'e', 'a', 'y', 'e', 'r'], ['e', 's', 't', 'e', ' ', 'a', 'n', 'o'], ['e', 's', 't', 'e', ' ', 'm', 'e', 's'], ['s', 'e', 'g', 'u', 'n', 'd', 'o', 's'], ['d', 'o', 'm', 'i', 'n', 'g', 'o'], ['f', 'e', 'b', 'r', 'e', 'r', 'o'], ['m', 'i', 'n', 'u', 't', 'o', 's'], ['o', 'c', 't', 'u', 'b', 'r', 'e'], ['s', 'e', 'g', 'u', 'n', 'd', 'o'], ['s', 'e', 'm', 'a', 'n', 'a', 's'], ['v', 'i', 'e', 'r', 'n', 'e', 's'], ['a', 'g', 'o', 's', 't', 'o'], ['j', 'u', 'e', 'v', 'e', 's'], ['m', 'a', 'n', 'a', 'n', 'a'], ['m', 'a', 'r', 't', 'e', 's'], ['m', 'i', 'n', 'u', 't', 'o'], ['s', 'a', 'b', 'a', 'd', 'o'], ['s', 'e', 'm', 'a', 'n', 'a'], ['a', ' ', 'l', 'a', 's'], ['a', 'b', 'r', 'i', 'l'], ['a', 'h', 'o', 'r', 'a'], ['c', 'e', 'r', 'c', 'a'], ['e', 'n', 'e', 'r', 'o'], ['h', 'o', 'r', 'a', 's'], ['j', 'u', 'l', 'i', 'o'], ['j', 'u', 'n', 'i', 'o'], ['l', 'u', 'n', 'e', 's'], ['m', 'a', 'r', 'z', 'o'], ['m', 'e', 's', 'e', 's'], ['a', 'n', 'o', 's'], ['a', 'y', 'e', 'r'], ['d', 'i', 'a', 's'], ['h', 'a', 'c', 'e'], ['h', 'o', 'r', 'a'], ['m', 'a', 'y', 'o'], ['s', 'e', 'p', 't'], ['a', 'b', 'r'], ['a', 'g', 'o'], ['a', 'n', 'o'], ['d', 'e', 'l'], ['d', 'i', 'a'], ['d', 'i', 'c'], ['d', 'o', 'm'], ['e', 'n', 'e'], ['f', 'e', 'b'], ['g', 'm', 't'], ['h', 'o', 'y'], ['j', 'u', 'e'], ['j', 'u', 'l'], ['j', 'u', 'n'], ['l', 'u', 'n'], ['m', 'a', 'r'], ['m', 'a', 'y'], ['m', 'e', 's'], ['m', 'i', 'e'], ['m', 'i', 'n'], ['n', 'o', 'v'], ['o', 'c', 't'], ['s', 'a', 'b'], ['s', 'e', 'g'], ['s', 'e', 'm'], ['s', 'e', 'p'], ['s', 'e', 't'], ['u', 't', 'c'], ['v', 'i', 'e'], ['a', 'm'], ['d', 'e'], ['d', 'o'], ['e', 'n'], ['j', 'u'], ['l', 'u'], ['m', 'i'], ['p', 'm'], ['s', 'a'], ['v', 'i'], [' '], ['\''], ['+'], [','], ['-'], ['.'], ['/'], [':'], [';'], ['@'], ['['], [']'], ['a'], ['d'], ['h'], ['m'], ['s'], ['y'], ['z'], ['|']] }

/-- internal/data/es.go: `es_SV_Locale`. -/
def es_SVLang : LangData := es_SVDict

/-- internal/data/es.go: `es_US_Locale`. -/
def es_USLang : LangData := es_USDict

/-- internal/data/es.go: `es_UY_Locale`. -/
def es_UYLang : LangData := es_UYDict

/-- internal/data/es.go: `es_VE_Locale`. -/
def es_VELang : LangData := es_VEDict

/-- internal/data/et.go: `et_Locale`. -/
def etLang : LangData := { etDict with
  relativeRegexes :=
   [(.seqs [.grp 1 (.number), .lit [' ', 's', 'e', 'k', 'u', 'n', 'd', 'i', ' ', 'p', 'a', 'r', 'a', 's', 't']], [.lit ['i', 'n', ' '], .ref 1, .lit [' ', 's', 'e', 'c', 'o', 'n', 'd']]),
    (.seqs [.grp 1 (.number), .lit [' ', 'm', 'i', 'n', 'u', 't', 'i', ' ', 'p', 'a', 'r', 'a', 's', 't']], [.lit ['i', 'n', ' '], .ref 1, .lit [' ', 'm', 'i', 'n', 'u', 't', 'e']]),
    (.seqs [.grp 1 (.number), .lit [' ', 'n', 'a', 'd', 'a', 'l', 'a', ' ', 'p', 'a', 'r', 'a', 's', 't']], [.lit ['i', 'n', ' '], .ref 1, .lit [' ', 'w', 'e', 'e', 'k']]),
    (.seqs [.grp 1 (.number), .lit [' ', 'a', 'a', 's', 't', 'a', ' ', 'p', 'a', 'r', 'a', 's', 't']], [.lit ['i', 'n', ' '], .ref 1, .lit [' ', 'y', 'e', 'a', 'r']]),
    (.seqs [.grp 1 (.number), .lit [' ', 'p', 'a', 'e', 'v', 'a', ' ', 'p', 'a', 'r', 'a', 's', 't']], [.lit ['i', 'n', ' '], .ref 1, .lit [' ', 'd', 'a', 'y']]),
    (.seqs [.grp 1 (.number), .lit [' ', 's', 'e', 'k', 'u', 'n', 'd', 'i', ' ', 'e', 'e', 's', 't']], [.ref 1, .lit [' ', 's', 'e', 'c', 'o', 'n', 'd', ' ', 'a', 'g', 'o']]),
    (.seqs [.grp 1 (.number), .lit [' ', 't', 'u', 'n', 'n', 'i', ' ', 'p', 'a', 'r', 'a', 's', 't']], [.lit ['i', 'n', ' '], .ref 1, .lit [' ', 'h', 'o', 'u', 'r']]),
    (.seqs [.grp 1 (.number), .lit [' ', 'm', 'i', 'n', 'u', 't', 'i', ' ', 'e', 'e', 's', 't']], [.ref 1, .lit [' ', 'm', 'i', 'n', 'u', 't', 'e', ' ', 'a', 'g', 'o']]),
    (.seqs [.grp 1 (.number), .lit [' ', 'n', 'a', 'd', 'a', 'l', 'a', ' ', 'e', 'e', 's', 't']], [.ref 1, .lit [' ', 'w', 'e', 'e', 'k', ' ', 'a', 'g', 'o']]),
    (.seqs [.grp 1 (.number), .lit [' ', 'a', 'a', 's', 't', 'a', ' ', 'e', 'e', 's', 't']], [.ref 1, .lit [' ', 'y', 'e', 'a', 'r', ' ', 'a', 'g', 'o']]),
    (.seqs [.grp 1 (.number), .lit [' ', 'k', 'u', 'u', ' ', 'p', 'a', 'r', 'a', 's', 't']], [.lit ['i', 'n', ' '], .ref 1, .lit [' ', 'm', 'o', 'n', 't', 'h']]),
    (.seqs [.grp 1 (.number), .lit [' ', 'm', 'i', 'n', ' ', 'p', 'a', 'r', 'a', 's', 't']], [.lit ['i', 'n', ' '], .ref 1, .lit [' ', 'm', 'i', 'n', 'u', 't', 'e']]),
    (.seqs [.grp 1 (.number), .lit [' ', 'n', 'a', 'd', ' ', 'p', 'a', 'r', 'a', 's', 't']], [.lit ['i', 'n', ' '], .ref 1, .lit [' ', 'w', 'e', 'e', 'k']]),
    (.seqs [.grp 1 (.number), .lit [' ', 'p', 'a', 'e', 'v', 'a', ' ', 'e', 'e', 's', 't']], [.ref 1, .lit [' ', 'd', 'a', 'y', ' ', 'a', 'g', 'o']]),
    (.seqs [.grp 1 (.number), .lit [' ', 's', 'e', 'k', ' ', 'p', 'a', 'r', 'a', 's', 't']], [.lit ['i', 'n', ' '], .ref 1, .lit [' ', 's', 'e', 'c', 'o', 'n', 'd']]),
    (.seqs [.grp 1 (.number), .lit [' ', 't', 'u', 'n', 'n', 'i', ' ', 'e', 'e', 's', 't']], [.ref 1, .lit [' ', 'h', 'o', 'u', 'r', ' ', 'a', 'g', 'o']]),
    (.seqs [.grp 1 (.number), .lit [' ', 'a', ' ', 'p', 'a', 'r', 'a', 's', 't']], [.lit ['i', 'n', ' '], .ref 1, .lit [' ', 'y', 'e', 'a', 'r']]),
    (.seqs [.grp 1 (.number), .lit [' ', 'k', ' ', 'p', 'a', 'r', 'a', 's', 't']], [.lit ['i', 'n', ' '], .ref 1, .lit [' ', 'm', 'o', 'n', 't', 'h']]),
    (.seqs [.grp 1 (.number), .lit [' ', 'k', 'u', 'u', ' ', 'e', 'e', 's', 't']], [.ref 1, .lit [' ', 'm', 'o', 'n', 't', 'h', ' ', 'a', 'g', 'o']]),
    (.seqs [.grp 1 (.number), .lit [' ', 'm', 'i', 'n', ' ', 'e', 'e', 's', 't']], [.ref 1, .lit [' ', 'm', 'i', 'n', 'u', 't', 'e', ' ', 'a', 'g', 'o']]),
    (.seqs [.grp 1 (.number), .lit [' ', 'n', 'a', 'd', ' ', 'e', 'e', 's', 't']], [.ref 1, .lit [' ', 'w', 'e', 'e', 'k', ' ', 'a', 'g', 'o']]),
    (.seqs [.grp 1 (.number), .lit [' ', 'p', ' ', 'p', 'a', 'r', 'a', 's', 't']], [.lit ['i', 'n', ' '], .ref 1, .lit [' ', 'd', 'a', 'y']]),
    (.seqs [.grp 1 (.number), .lit [' ', 's', ' ', 'p', 'a', 'r', 'a', 's', 't']], [.lit ['i', 'n', ' '], .ref 1, .lit [' ', 's', 'e', 'c', 'o', 'n', 'd']]),
    (.seqs [.grp 1 (.number), .lit [' ', 's', 'e', 'k', ' ', 'e', 'e', 's', 't']], [.ref 1, .lit [' ', 's', 'e', 'c', 'o', 'n', 'd', ' ', 'a', 'g', 'o']]),
    (.seqs [.grp 1 (.number), .lit [' ', 't', ' ', 'p', 'a', 'r', 'a', 's', 't']], [.lit ['i', 'n', ' '], .ref 1, .lit [' ', 'h', 'o', 'u', 'r']]),
    (.seqs [.grp 1 (.number), .lit [' ', 'a', ' ', 'e', 'e', 's', 't']], [.ref 1, .lit [' ', 'y', 'e', 'a', 'r', ' ', 'a', 'g', 'o']]),
    (.seqs [.grp 1 (.number), .lit [' ', 'k', ' ', 'e', 'e', 's', 't']], [.ref 1, .lit [' ', 'm', 'o', 'n', 't', 'h', ' ', 'a', 'g', 'o']]),
    (.seqs [.grp 1 (.number), .lit [' ', 'p', ' ', 'e', 'e', 's', 't']], [.ref 1, .lit [' ', 'd', 'a', 'y', ' ', 'a', 'g', 'o']]),
    (.seqs [.grp 1 (.number), .lit [' ', 's', ' ', 'e', 'e', 's', 't']], [.ref 1, .lit [' ', 's', 'e', 'c', 'o', 'n', 'd', ' ', 'a', 'g', 'o']]),
    (.seqs [.grp 1 (.number), .lit [' ', 't', ' ', 'e', 'e', 's', 't']], [.ref 1, .lit [' ', 'h', 'o', 'u', 'r', ' ', 'a', 'g', 'o']])],
  rxCombined := some (.seqs [.grp 1 (.alts [.bos, .cls true [.letter, .mark, .digit], .lit ['_']]), .grp 2 (.alts [.seqs [.number, .lit [' ', 's', 'e', 'k', 'u', 'n', 'd', 'i', ' ', 'p', 'a', 'r', 'a', 's', 't']], .seqs [.number, .lit [' ', 'm', 'i', 'n', 'u', 't', 'i', ' ', 'p', 'a', 'r', 'a', 's', 't']], .seqs [.number, .lit [' ', 'n', 'a', 'd', 'a', 'l', 'a', ' ', 'p', 'a', 'r', 'a', 's', 't']], .seqs [.number, .lit [' ', 'a', 'a', 's', 't', 'a', ' ', 'p', 'a', 'r', 'a', 's', 't']], .seqs [.number, .lit [' ', 'p', 'a', 'e', 'v', 'a', ' ', 'p', 'a', 'r', 'a', 's', 't']], .seqs [.number, .lit [' ', 's', 'e', 'k', 'u', 'n', 'd', 'i', ' ', 'e', 'e', 's', 't']], .seqs [.number, .lit [' ', 't', 'u', 'n', 'n', 'i', ' ', 'p', 'a', 'r', 'a', 's', 't']], .seqs [.number, .lit [' ', 'm', 'i', 'n', 'u', 't', 'i', ' ', 'e', 'e', 's', 't']], .seqs [.number, .lit [' ', 'n', 'a', 'd', 'a', 'l', 'a', ' ', 'e', 'e', 's', 't']], .seqs [.number, .lit [' ', 'a', 'a', 's', 't', 'a', ' ', 'e', 'e', 's', 't']], .seqs [.number, .lit [' ', 'k', 'u', 'u', ' ', 'p', 'a', 'r', 'a', 's', 't']], .seqs [.number, .lit [' ', 'm', 'i', 'n', ' ', 'p', 'a', 'r', 'a', 's', 't']], .seqs [.number, .lit [' ', 'n', 'a', 'd', ' ', 'p', 'a', 'r', 'a', 's', 't']], .seqs [.number, .lit [' ', 'p', 'a', 'e', 'v', 'a', ' ', 'e', 'e', 's', 't']], .seqs [.number, .lit [' ', 's', 'e', 'k', ' ', 'p', 'a', 'r', 'a', 's', 't']], .seqs [.number, .lit [' ', 't', 'u', 'n', 'n', 'i', ' ', 'e', 'e', 's', 't']], .seqs [.number, .lit [' ', 'a', ' ', 'p', 'a', 'r', 'a', 's', 't']], .seqs [.number, .lit [' ', 'k', ' ', 'p', 'a', 'r', 'a', 's', 't']], .seqs [.number, .lit [' ', 'k', 'u', 'u', ' ', 'e', 'e', 's', 't']], .seqs [.number, .lit [' ', 'm', 'i', 'n', ' ', 'e', 'e', 's', 't']], .seqs [.number, .lit [' ', 'n', 'a', 'd', ' ', 'e', 'e', 's', 't']], .seqs [.number, .lit [' ', 'p', ' ', 'p', 'a', 'r', 'a', 's', 't']], .seqs [.number, .lit [' ', 's', ' ', 'p', 'a', 'r', 'a', 's', 't']], .seqs [.number, .lit [' ', 's', 'e', 'k', ' ', 'e', 'e', 's', 't']], .seqs [.number, .lit [' ', 't', ' ', 'p', 'a', 'r', 'a', 's', 't']], .seqs [.number, .lit [' ', 'a', ' ', 'e', 'e', 's', 't']], .seqs [.number, .lit [' ', 'k', ' ', 'e', 'e', 's', 't']], .seqs [.number, .lit [' ', 'p', ' ', 'e', 'e', 's', 't']], .seqs [.number, .lit [' ', 's', ' ', 'e', 'e', 's', 't']], .seqs [.number, .lit [' ', 't', ' ', 'e', 'e', 's', 't']]]), .grp 3 (.alts [.eos, .cls true [.letter, .mark, .digit], .lit ['_']])], 3),
  rxExact := some (.seqs [.bos, .grp 1 (.alts [.seqs [.number, .lit [' ', 's', 'e', 'k', 'u', 'n', 'd', 'i', ' ', 'p', 'a', 'r', 'a', 's', 't']], .seqs [.number, .lit [' ', 'm', 'i', 'n', 'u', 't', 'i', ' ', 'p', 'a', 'r', 'a', 's', 't']], .seqs [.number, .lit [' ', 'n', 'a', 'd', 'a', 'l', 'a', ' ', 'p', 'a', 'r', 'a', 's', 't']], .seqs [.number, .lit [' ', 'a', 'a', 's', 't', 'a', ' ', 'p', 'a', 'r', 'a', 's', 't']], .seqs [.number, .lit [' ', 'p', 'a', 'e', 'v', 'a', ' ', 'p', 'a', 'r', 'a', 's', 't']], .seqs [.number, .lit [' ', 's', 'e', 'k', 'u', 'n', 'd', 'i', ' ', 'e', 'e', 's', 't']], .seqs [.number, .lit [' ', 't', 'u', 'n', 'n', 'i', ' ', 'p', 'a', 'r', 'a', 's', 't']], .seqs [.number, .lit [' ', 'm', 'i', 'n', 'u', 't', 'i', ' ', 'e', 'e', 's', 't']], .seqs [.number, .lit [' ', 'n', 'a', 'd', 'a', 'l', 'a', ' ', 'e', 'e', 's', 't']], .seqs [.number, .lit [' ', 'a', 'a', 's', 't', 'a', ' ', 'e', 'e', 's', 't']], .seqs [.number, .lit [' ', 'k', 'u', 'u', ' ', 'p', 'a', 'r', 'a', 's', 't']], .seqs [.number, .lit [' ', 'm', 'i', 'n', ' ', 'p', 'a', 'r', 'a', 's', 't']], .seqs [.number, .lit [' ', 'n', 'a', 'd', ' ', 'p', 'a', 'r', 'a', 's', 't']], .seqs [.number, .lit [' ', 'p', 'a', 'e', 'v', 'a', ' ', 'e', 'e', 's', 't']], .seqs [.number, .lit [' ', 's', 'e', 'k', ' ', 'p', 'a', 'r', 'a', 's', 't']], .seqs [.number, .lit [' ', 't', 'u', 'n', 'n', 'i', ' ', 'e', 'e', 's', 't']], .seqs [.number, .lit [' ', 'a', ' ', 'p', 'a', 'r', 'a', 's', 't']], .seqs [.number, .lit [' ', 'k', ' ', 'p', 'a', 'r', 'a', 's', 't']], .seqs [.number, .lit [' ', 'k', 'u', 'u', ' ', 'e', 'e', 's', 't']], .seqs [.number, .lit [' ', 'm', 'i', 'n', ' ', 'e', 'e', 's', 't']], .seqs [.number, .lit [' ', 'n', 'a', 'd', ' ', 'e', 'e', 's', 't']], .seqs [.number, .lit [' ', 'p', ' ', 'p', 'a', 'r', 'a', 's', 't']], .seqs [.number, .lit [' ', 's', ' ', 'p', 'a', 'r', 'a', 's', 't']], .seqs [.number, .lit [' ', 's', 'e', 'k', ' ', 'e', 'e', 's', 't']], .seqs [.number, .lit [' ', 't', ' ', 'p', 'a', 'r', 'a', 's', 't']], .seqs [.number, .lit [' ', 'a', ' ', 'e', 'e', 's', 't']], .seqs [.number, .lit [' ', 'k', ' ', 'e', 'e', 's', 't']], .seqs [.number, .lit [' ', 'p', ' ', 'e', 'e', 's', 't']], .seqs [.number, .lit [' ', 's', ' ', 'e', 'e', 's', 't']], .seqs [.number, .lit [' ', 't', ' ', 'e', 'e', 's', 't']]]), .eos]),
  knownWords :=
   [['p', 'r', 'a', 'e', 'g', 'u', 's', 'e', 'l', ' ', 'm', 'i', 'n', 'u', 't', 'i', 'l'], ['p', 'r', 'a', 'e', 'g', 'u', 's', 'e', 'l', ' ', 't', 'u', 'n', 'n', 'i', 'l'], ['j', 'a', 'r', 'g', 'm', 'i', 'n', 'e', ' ', 'a', 'a', 's', 't', 'a'], ['j', 'a', 'r', 'g', 'm', 'i', 'n', 'e', ' ', 'n', 'a', 'd', 'a', 'l'], ['k', 'a', 'e', 's', 'o', 'l', 'e', 'v', ' ', 'a', 'a', 's', 't', 'a'], ['k', 'a', 'e', 's', 'o', 'l', 'e', 'v', ' ', 'n', 'a', 'd', 'a', 'l'], ['e', 'e', 'l', 'm', 'i', 'n', 'e', ' ', 'a', 'a', 's', 't', 'a'], ['e', 'e', 'l', 'm', 'i', 'n', 'e', ' ', 'n', 'a', 'd', 'a', 'l'], ['j', 'a', 'r', 'g', 'm', 'i', 'n', 'e', ' ', 'k', 'u', 'u'], ['k', 'a', 'e', 's', 'o', 'l', 'e', 'v', ' ', 'k', 'u', 'u'], ['e', 'e', 'l', 'm', 'i', 'n', 'e', ' ', 'k', 'u', 'u'], ['d', 'e', 't', 's', 'e', 'm', 'b', 'e', 'r'], ['e', 's', 'm', 'a', 's', 'p', 'a', 'e', 'v'], ['k', 'o', 'l', 'm', 'a', 'p', 'a', 'e', 'v'], ['n', 'e', 'l', 'j', 'a', 'p', 'a', 'e', 'v'], ['s', 'e', 'p', 't', 'e', 'm', 'b', 'e', 'r'], ['t', 'e', 'i', 's', 'i', 'p', 'a', 'e', 'v'], ['n', 'o', 'v', 'e', 'm', 'b', 'e', 'r'], ['o', 'k', 't', 'o', 'o', 'b', 'e', 'r'], ['p', 'u', 'h', 'a', 'p', 'a', 'e', 'v'], ['v', 'e', 'e', 'b', 'r', 'u', 'a', 'r'], ['j', 'a', 'a', 'n', 'u', 'a', 'r'], ['l', 'a', 'u', 'p', 'a', 'e', 'v'], ['a', 'p', 'r', 'i', 'l', 'l'], ['a', 'u', 'g', 'u', 's', 't'], ['s', 'e', 'k', 'u', 'n', 'd'], ['a', 'a', 's', 't', 'a'], ['h', 'o', 'm', 'm', 'e'], ['j', 'u', 'u', 'l', 'i'], ['j', 'u', 'u', 'n', 'i'], ['m', 'a', 'r', 't', 's'], ['m', 'i', 'n', 'u', 't'], ['n', 'a', 'd', 'a', 'l'], ['r', 'e', 'e', 'd', 'e'], ['v', 'e', 'e', 'b', 'r'], ['d', 'e', 't', 's'], ['e', 'i', 'l', 'e'], ['j', 'a', 'a', 'n'], ['n', 'u', 'u', 'd'], ['p', 'a', 'e', 'v'], ['s', 'e', 'p', 't'], ['t', 'a', 'n', 'a'], ['t', 'u', 'n', 'd'], ['a', 'p', 'r'], ['a', 'u', 'g'], ['g', 'm', 't'], ['k', 'u', 'u'], ['m', 'a', 'i'], ['m', 'i', 'n'], ['n', 'a', 'd'], ['n', 'o', 'v'], ['o', 'k', 't'], ['s', 'e', 'k'], ['u', 't', 'c'], ['a', 'm'], ['p', 'm'], [' '], ['\''], ['+'], [','], ['-'], ['.'], ['/'], [':'], [';'], ['@'], ['['], [']'], ['a'], ['e'], ['k'], ['l'], ['n'], ['p'], ['r'], ['s'], ['t'], ['z'], ['|']] }

/-- internal/data/eu.go: `eu_Locale`. -/
def euLang : LangData := { euDict with
  relativeRegexes :=
   [(.seqs [.grp 1 (.number), .lit [' ', 'h', 'i', 'l', 'a', 'b', 'e', 't', 'e', ' ', 'b', 'a', 'r', 'r', 'u']], [.lit ['i', 'n', ' '], .ref 1, .lit [' ', 'm', 'o', 'n', 't', 'h']]),
    (.seqs [.lit ['d', 'u', 'e', 'l', 'a', ' '], .grp 1 (.number), .lit [' ', 'h', 'i', 'l', 'a', 'b', 'e', 't', 'e']], [.ref 1, .lit [' ', 'm', 'o', 'n', 't', 'h', ' ', 'a', 'g', 'o']]),
    (.seqs [.grp 1 (.number), .lit [' ', 's', 'e', 'g', 'u', 'n', 'd', 'o', ' ', 'b', 'a', 'r', 'r', 'u']], [.lit ['i', 'n', ' '], .ref 1, .lit [' ', 's', 'e', 'c', 'o', 'n', 'd']]),
    (.seqs [.lit ['d', 'u', 'e', 'l', 'a', ' '], .grp 1 (.number), .lit [' ', 's', 'e', 'g', 'u', 'n', 'd', 'o']], [.ref 1, .lit [' ', 's', 'e', 'c', 'o', 'n', 'd', ' ', 'a', 'g', 'o']]),
    (.seqs [.grp 1 (.number), .lit [' ', 'm', 'i', 'n', 'u', 't', 'u', ' ', 'b', 'a', 'r', 'r', 'u']], [.lit ['i', 'n', ' '], .ref 1, .lit [' ', 'm', 'i', 'n', 'u', 't', 'e']]),
    (.seqs [.lit ['d', 'u', 'e', 'l', 'a', ' '], .grp 1 (.number), .lit [' ', 'm', 'i', 'n', 'u', 't', 'u']], [.ref 1, .lit [' ', 'm', 'i', 'n', 'u', 't', 'e', ' ', 'a', 'g', 'o']]),
    (.seqs [.grp 1 (.number), .lit [' ', 'a', 's', 't', 'e', ' ', 'b', 'a', 'r', 'r', 'u']], [.lit ['i', 'n', ' '], .ref 1, .lit [' ', 'w', 'e', 'e', 'k']]),
    (.seqs [.grp 1 (.number), .lit [' ', 'e', 'g', 'u', 'n', ' ', 'b', 'a', 'r', 'r', 'u']], [.lit ['i', 'n', ' '], .ref 1, .lit [' ', 'd', 'a', 'y']]),
    (.seqs [.grp 1 (.number), .lit [' ', 'o', 'r', 'd', 'u', ' ', 'b', 'a', 'r', 'r', 'u']], [.lit ['i', 'n', ' '], .ref 1, .lit [' ', 'h', 'o', 'u', 'r']]),
    (.seqs [.grp 1 (.number), .lit [' ', 'u', 'r', 't', 'e', ' ', 'b', 'a', 'r', 'r', 'u']], [.lit ['i', 'n', ' '], .ref 1, .lit [' ', 'y', 'e', 'a', 'r']]),
    (.seqs [.lit ['d', 'u', 'e', 'l', 'a', ' '], .grp 1 (.number), .lit [' ', 'a', 's', 't', 'e']], [.ref 1, .lit [' ', 'w', 'e', 'e', 'k', ' ', 'a', 'g', 'o']]),
    (.seqs [.lit ['d', 'u', 'e', 'l', 'a', ' '], .grp 1 (.number), .lit [' ', 'e', 'g', 'u', 'n']], [.ref 1, .lit [' ', 'd', 'a', 'y', ' ', 'a', 'g', 'o']]),
    (.seqs [.lit ['d', 'u', 'e', 'l', 'a', ' '], .grp 1 (.number), .lit [' ', 'o', 'r', 'd', 'u']], [.ref 1, .lit [' ', 'h', 'o', 'u', 'r', ' ', 'a', 'g', 'o']]),
    (.seqs [.lit ['d', 'u', 'e', 'l', 'a', ' '], .grp 1 (.number), .lit [' ', 'u', 'r', 't', 'e']], [.ref 1, .lit [' ', 'y', 'e', 'a', 'r', ' ', 'a', 'g', 'o']])],
  rxCombined := some (.seqs [.grp 1 (.alts [.bos, .cls true [.letter, .mark, .digit], .lit ['_']]), .grp 2 (.alts [.seqs [.number, .lit [' ', 'h', 'i', 'l', 'a', 'b', 'e', 't', 'e', ' ', 'b', 'a', 'r', 'r', 'u']], .seqs [.lit ['d', 'u', 'e', 'l', 'a', ' '], .number, .lit [' ', 'h', 'i', 'l', 'a', 'b', 'e', 't', 'e']], .seqs [.number, .lit [' ', 's', 'e', 'g', 'u', 'n', 'd', 'o', ' ', 'b', 'a', 'r', 'r', 'u']], .seqs [.lit ['d', 'u', 'e', 'l', 'a', ' '], .number, .lit [' ', 's', 'e', 'g', 'u', 'n', 'd', 'o']], .seqs [.number, .lit [' ', 'm', 'i', 'n', 'u', 't', 'u', ' ', 'b', 'a', 'r', 'r', 'u']], .seqs [.lit ['d', 'u', 'e', 'l', 'a', ' '], .number, .lit [' ', 'm', 'i', 'n', 'u', 't', 'u']], .seqs [.number, .lit [' ', 'a', 's', 't', 'e', ' ', 'b', 'a', 'r', 'r', 'u']], .seqs [.number, .lit [' ', 'e', 'g', 'u', 'n', ' ', 'b', 'a', 'r', 'r', 'u']], .seqs [.number, .lit [' ', 'o', 'r', 'd', 'u', ' ', 'b', 'a', 'r', 'r', 'u']], .seqs [.number, .lit [' ', 'u', 'r', 't', 'e', ' ', 'b', 'a', 'r', 'r', 'u']], .seqs [.lit ['d', 'u', 'e', 'l', 'a', ' '], .number, .lit [' ', 'a', 's', 't', 'e']], .seqs [.lit ['d', 'u', 'e', 'l', 'a', ' '], .number, .lit [' ', 'e', 'g', 'u', 'n']], .seqs [.lit ['d', 'u', 'e', 'l', 'a', ' '], .number, .lit [' ', 'o', 'r', 'd', 'u']], .seqs [.lit ['d', 'u', 'e', 'l', 'a', ' '], .number, .lit [' ', 'u', 'r', 't', 'e']]]), .grp 3 (.alts [.eos, .cls true [.letter, .mark, .digit], .lit ['_']])], 3),
  rxExact := some (.seqs [.bos, .grp 1 (.alts [.seqs [.number, .lit [' ', 'h', 'i', 'l', 'a', 'b', 'e', 't', 'e', ' ', 'b', 'a', 'r', 'r', 'u']], .seqs [.lit ['d', 'u', 'e', 'l', 'a', ' '], .number, .lit [' ', 'h', 'i', 'l', 'a', 'b', 'e', 't', 'e']], .seqs [.number, .lit [' ', 's', 'e', 'g', 'u', 'n', 'd', 'o', ' ', 'b', 'a', 'r', 'r', 'u']], .seqs [.lit ['d', 'u', 'e', 'l', 'a', ' '], .number, .lit [' ', 's', 'e', 'g', 'u', 'n', 'd', 'o']], .seqs [.number, .lit [' ', 'm', 'i', 'n', 'u', 't', 'u', ' ', 'b', 'a', 'r', 'r', 'u']], .seqs [.lit ['d', 'u', 'e', 'l', 'a', ' '], .number, .lit [' ', 'm', 'i', 'n', 'u', 't', 'u']], .seqs [.number, .lit [' ', 'a', 's', 't', 'e', ' ', 'b', 'a', 'r', 'r', 'u']], .seqs [.number, .lit [' ', 'e', 'g', 'u', 'n', ' ', 'b', 'a', 'r', 'r', 'u']], .seqs [.number, .lit [' ', 'o', 'r', 'd', 'u', ' ', 'b', 'a', 'r', 'r', 'u']], .seqs [.number, .lit [' ', 'u', 'r', 't', 'e', ' ', 'b', 'a', 'r', 'r', 'u']], .seqs [.lit ['d', 'u', 'e', 'l', 'a', ' '], .number, .lit [' ', 'a', 's', 't', 'e']], .seqs [.lit ['d', 'u', 'e', 'l', 'a', ' '], .number, .lit [' ', 'e', 'g', 'u', 'n']], .seqs [.lit ['d', 'u', 'e', 'l', 'a', ' '], .number, .lit [' ', 'o', 'r', 'd', 'u']], .seqs [.lit ['d', 'u', 'e', 'l', 'a', ' '], .number, .lit [' ', 'u', 'r', 't', 'e']]]), .eos]),
  knownWords :=
   [['h', 'u', 'r', 'r', 'e', 'n', 'g', 'o', ' ', 'h', 'i', 'l', 'a', 'b', 'e', 't', 'e', 'a'], ['a', 'u', 'r', 'r', 'e', 'k', 'o', ' ', 'h', 'i', 'l', 'a', 'b', 'e', 't', 'e', 'a'], ['h', 'u', 'r', 'r', 'e', 'n', 'g', 'o', ' ', 'a', 's', 't', 'e', 'a'], ['h', 'u', 'r', 'r', 'e', 'n', 'g', 'o', ' ', 'u', 'r', 't', 'e', 'a'], ['m', 'i', 'n', 'u', 't', 'u', ' ', 'h', 'o', 'n', 'e', 't', 'a', 'n'], ['a', 'u', 'r', 'r', 'e', 'k', 'o', ' ', 'a', 's', 't', 'e', 'a'], ['a', 'u', 'r', 'r', 'e', 'k', 'o', ' ', 'u', 'r', 't', 'e', 'a'], ['h', 'i', 'l', 'a', 'b', 'e', 't', 'e', ' ', 'h', 'a', 'u'], ['o', 'r', 'd', 'u', ' ', 'h', 'o', 'n', 'e', 't', 'a', 'n'], ['a', 's', 't', 'e', 'a', 'z', 'k', 'e', 'n', 'a'], ['a', 's', 't', 'e', 'l', 'e', 'h', 'e', 'n', 'a'], ['a', 's', 't', 'e', 'a', 'r', 't', 'e', 'a'], ['h', 'i', 'l', 'a', 'b', 'e', 't', 'e', 'a'], ['l', 'a', 'r', 'u', 'n', 'b', 'a', 't', 'a'], ['u', 'r', 't', 'a', 'r', 'r', 'i', 'l', 'a'], ['a', 's', 't', 'e', ' ', 'h', 'a', 'u'], ['o', 's', 't', 'e', 'g', 'u', 'n', 'a'], ['o', 's', 't', 'i', 'r', 'a', 'l', 'a'], ['s', 'e', 'g', 'u', 'n', 'd', 'o', 'a'], ['a', 'b', 'e', 'n', 'd', 'u', 'a'], ['a', 'b', 'u', 'z', 't', 'u', 'a'], ['a', 'p', 'i', 'r', 'i', 'l', 'a'], ['i', 'g', 'a', 'n', 'd', 'e', 'a'], ['m', 'a', 'i', 'a', 't', 'z', 'a'], ['m', 'a', 'r', 't', 'x', 'o', 'a'], ['m', 'i', 'n', 'u', 't', 'u', 'a'], ['o', 't', 's', 'a', 'i', 'l', 'a'], ['u', 'z', 't', 'a', 'i', 'l', 'a'], ['a', 'u', 'r', 't', 'e', 'n'], ['a', 'z', 'a', 'r', 'o', 'a'], ['e', 'k', 'a', 'i', 'n', 'a'], ['i', 'r', 'a', 'i', 'l', 'a'], ['a', 's', 't', 'e', 'a'], ['b', 'i', 'h', 'a', 'r'], ['e', 'g', 'u', 'n', 'a'], ['o', 'r', 'a', 'i', 'n'], ['o', 'r', 'd', 'u', 'a'], ['u', 'r', 'r', 'i', 'a'], ['u', 'r', 't', 'e', 'a'], ['a', 't', 'z', 'o'], ['g', 'a', 'u', 'r'], ['a', 'b', 'e'], ['a', 'b', 'u'], ['a', 'p', 'i'], ['a', 's', 't'], ['a', 'z', 'a'], ['e', 'k', 'a'], ['g', 'm', 't'], ['h', 'i', 'l'], ['i', 'r', 'a'], ['m', 'a', 'i'], ['m', 'a', 'r'], ['m', 'i', 'n'], ['o', 't', 's'], ['u', 'r', 'r'], ['u', 'r', 't'], ['u', 't', 'c'], ['u', 'z', 't'], ['a', 'l'], ['a', 'm'], ['a', 'r'], ['a', 'z'], ['e', 'g'], ['i', 'g'], ['l', 'r'], ['o', 'g'], ['o', 'r'], ['p', 'm'], [' '], ['\''], ['+'], [','], ['-'], ['.'], ['/'], [':'], [';'], ['@'], ['['], [']'], ['h'], ['s'], ['z'], ['|']] }

/-- internal/data/ewo.go: `ewo_Locale`. -/
def ewoLang : LangData := { ewoDict with
  knownWords :=
   [['n', 'g', 'ɔ', 'n', ' ', 'a', 'w', 'o', 'm', ' ', 'a', 'i', ' ', 'd', 'z', 'i', 'a'], ['s', 'ɔ', 'n', 'd', 'ɔ', ' ', 'm', 'ə', 'l', 'u', ' ', 'm', 'ə', 'n', 'y', 'i'], ['n', 'g', 'ɔ', 'n', ' ', 'a', 'w', 'o', 'm', ' ', 'a', 'i', ' ', 'b', 'ɛ'], ['s', 'ɔ', 'n', 'd', 'ɔ', ' ', 'm', 'ə', 'l', 'u', ' ', 'm', 'ə', 'b', 'ɛ'], ['s', 'ɔ', 'n', 'd', 'ɔ', ' ', 'm', 'ə', 'l', 'u', ' ', 'm', 'ə', 'l', 'ɛ'], ['n', 'g', 'ɔ', 'n', ' ', 'z', 'a', 'm', 'g', 'b', 'a', 'l', 'a'], ['n', 'g', 'ɔ', 'n', ' ', 's', 'a', 'm', 'ə', 'n', 'a'], ['t', 'h', 'i', 's', ' ', 'm', 'i', 'n', 'u', 't', 'e'], ['l', 'a', 's', 't', ' ', 'm', 'o', 'n', 't', 'h'], ['n', 'e', 'x', 't', ' ', 'm', 'o', 'n', 't', 'h'], ['n', 'g', 'ɔ', 'n', ' ', 'e', 'b', 'u', 'l', 'u'], ['n', 'g', 'ɔ', 'n', ' ', 'n', 'y', 'i', 'n', 'a'], ['t', 'h', 'i', 's', ' ', 'm', 'o', 'n', 't', 'h'], ['l', 'a', 's', 't', ' ', 'w', 'e', 'e', 'k'], ['l', 'a', 's', 't', ' ', 'y', 'e', 'a', 'r'], ['n', 'e', 'x', 't', ' ', 'w', 'e', 'e', 'k'], ['n', 'e', 'x', 't', ' ', 'y', 'e', 'a', 'r'], ['n', 'g', 'ɔ', 'n', ' ', 'a', 'w', 'o', 'm'], ['n', 'g', 'ɔ', 'n', ' ', 'l', 'a', 'l', 'a'], ['n', 'g', 'ɔ', 'n', ' ', 'm', 'w', 'o', 'm'], ['n', 'g', 'ɔ', 'n', ' ', 't', 'a', 'n', 'a'], ['n', 'g', 'ə', 'g', 'o', 'g', 'ə', 'l', 'e'], ['t', 'h', 'i', 's', ' ', 'h', 'o', 'u', 'r'], ['t', 'h', 'i', 's', ' ', 'w', 'e', 'e', 'k'], ['t', 'h', 'i', 's', ' ', 'y', 'e', 'a', 'r'], ['n', 'g', 'ɔ', 'n', ' ', 'o', 's', 'u'], ['a', 'k', 'a', 'b', 'ə', 'g', 'a'], ['k', 'i', 'k', 'i', 'r', 'i', 'g'], ['n', 'g', 'ɔ', 'n', ' ', 'b', 'ɛ'], ['a', 'n', 'g', 'o', 'g', 'e'], ['e', 'n', 'u', 't', 'ɛ', 'n'], ['f', 'u', 'l', 'a', 'd', 'e'], ['s', 'e', 'r', 'a', 'd', 'e'], ['a', 'w', 'o', 'l', 'a'], ['m', 'ɔ', 'n', 'd', 'i'], ['o', 'k', 'i', 'r', 'i'], ['s', 'ɔ', 'n', 'd', 'ɔ'], ['a', 'm', 'o', 's'], ['n', 'g', 'a', 'b'], ['n', 'g', 'a', 'd'], ['n', 'g', 'ɔ', 'n'], ['a', 'n', 'a'], ['f', 'u', 'l'], ['g', 'm', 't'], ['m', 'b', 'u'], ['m', 'ɔ', 'n'], ['n', 'g', 'a'], ['n', 'g', 'b'], ['n', 'g', 'e'], ['n', 'g', 'l'], ['n', 'g', 'm'], ['n', 'g', 'n'], ['n', 'g', 'o'], ['n', 'g', 's'], ['n', 'g', 't'], ['n', 'g', 'z'], ['n', 'o', 'w'], ['s', 'e', 'r'], ['s', 'm', 'b'], ['s', 'm', 'l'], ['s', 'm', 'n'], ['s', 'ɔ', 'n'], ['u', 't', 'c'], ['a', 'm'], ['p', 'm'], [' '], ['\''], ['+'], [','], ['-'], ['.'], ['/'], [':'], [';'], ['@'], ['['], [']'], ['z'], ['|']] }

/-- internal/data/fa.go: `fa_Locale`. -/
def faLang : LangData := { faDict with
  relativeRegexes :=
   [(.seqs [.grp 1 (.number), .lit [' ', 'ث', 'ا', 'ن', 'ی', 'ه', ' ', 'ب', 'ع', 'د']], [.lit ['i', 'n', ' '], .ref 1, .lit [' ', 's', 'e', 'c', 'o', 'n', 'd']]),
    (.seqs [.grp 1 (.number), .lit [' ', 'ث', 'ا', 'ن', 'ی', 'ه', ' ', 'پ', 'ی', 'ش']], [.ref 1, .lit [' ', 's', 'e', 'c', 'o', 'n', 'd', ' ', 'a', 'g', 'o']]),
    (.seqs [.grp 1 (.number), .lit [' ', 'د', 'ق', 'ی', 'ق', 'ه', ' ', 'ب', 'ع', 'د']], [.lit ['i', 'n', ' '], .ref 1, .lit [' ', 'm', 'i', 'n', 'u', 't', 'e']]),
    (.seqs [.grp 1 (.number), .lit [' ', 'د', 'ق', 'ی', 'ق', 'ه', ' ', 'پ', 'ی', 'ش']], [.ref 1, .lit [' ', 'm', 'i', 'n', 'u', 't', 'e', ' ', 'a', 'g', 'o']]),
    (.seqs [.grp 1 (.number), .lit [' ', 'س', 'ا', 'ع', 'ت', ' ', 'ب', 'ع', 'د']], [.lit ['i', 'n', ' '], .ref 1, .lit [' ', 'h', 'o', 'u', 'r']]),
    (.seqs [.grp 1 (.number), .lit [' ', 'س', 'ا', 'ع', 'ت', ' ', 'پ', 'ی', 'ش']], [.ref 1, .lit [' ', 'h', 'o', 'u', 'r', ' ', 'a', 'g', 'o']]),
    (.seqs [.grp 1 (.number), .lit [' ', 'ه', 'ف', 'ت', 'ه', ' ', 'ب', 'ع', 'د']], [.lit ['i', 'n', ' '], .ref 1, .lit [' ', 'w', 'e', 'e', 'k']]),
    (.seqs [.grp 1 (.number), .lit [' ', 'ه', 'ف', 'ت', 'ه', ' ', 'پ', 'ی', 'ش']], [.ref 1, .lit [' ', 'w', 'e', 'e', 'k', ' ', 'a', 'g', 'o']]),
    (.seqs [.grp 1 (.number), .lit [' ', 'ر', 'و', 'ز', ' ', 'ب', 'ع', 'د']], [.lit ['i', 'n', ' '], .ref 1, .lit [' ', 'd', 'a', 'y']]),
    (.seqs [.grp 1 (.number), .lit [' ', 'ر', 'و', 'ز', ' ', 'پ', 'ی', 'ش']], [.ref 1, .lit [' ', 'd', 'a', 'y', ' ', 'a', 'g', 'o']]),
    (.seqs [.grp 1 (.number), .lit [' ', 'س', 'ا', 'ل', ' ', 'ب', 'ع', 'د']], [.lit ['i', 'n', ' '], .ref 1, .lit [' ', 'y', 'e', 'a', 'r']]),
    (.seqs [.grp 1 (.number), .lit [' ', 'س', 'ا', 'ل', ' ', 'پ', 'ی', 'ش']], [.ref 1, .lit [' ', 'y', 'e', 'a', 'r', ' ', 'a', 'g', 'o']]),
    (.seqs [.grp 1 (.number), .lit [' ', 'م', 'ا', 'ه', ' ', 'ب', 'ع', 'د']], [.lit ['i', 'n', ' '], .ref 1, .lit [' ', 'm', 'o', 'n', 't', 'h']]),
    (.seqs [.grp 1 (.number), .lit [' ', 'م', 'ا', 'ه', ' ', 'پ', 'ی', 'ش']], [.ref 1, .lit [' ', 'm', 'o', 'n', 't', 'h', ' ', 'a', 'g', 'o']])],
  rxCombined := some (.seqs [.grp 1 (.alts [.bos, .cls true [.letter, .mark, .digit], .lit ['_']]), .grp 2 (.alts [.seqs [.number, .lit [' ', 'ث', 'ا', 'ن', 'ی', 'ه', ' ', 'ب', 'ع', 'د']], .seqs [.number, .lit [' ', 'ث', 'ا', 'ن', 'ی', 'ه', ' ', 'پ', 'ی', 'ش']], .seqs [.number, .lit [' ', 'د', 'ق', 'ی', 'ق', 'ه', ' ', 'ب', 'ع', 'د']], .seqs [.number, .lit [' ', 'د', 'ق', 'ی', 'ق', 'ه', ' ', 'پ', 'ی', 'ش']], .seqs [.number, .lit [' ', 'س', 'ا', 'ع', 'ت', ' ', 'ب', 'ع', 'د']], .seqs [.number, .lit [' ', 'س', 'ا', 'ع', 'ت', ' ', 'پ', 'ی', 'ش']], .seqs [.number, .lit [' ', 'ه', 'ف', 'ت', 'ه', ' ', 'ب', 'ع', 'د']], .seqs [.number, .lit [' ', 'ه', 'ف', 'ت', 'ه', ' ', 'پ', 'ی', 'ش']], .seqs [.number, .lit [' ', 'ر', 'و', 'ز', ' ', 'ب', 'ع', 'د']], .seqs [.number, .lit [' ', 'ر', 'و', 'ز', ' ', 'پ', 'ی', 'ش']], .seqs [.number, .lit [' ', 'س', 'ا', 'ل', ' ', 'ب', 'ع', 'د']], .seqs [.number, .lit [' ', 'س', 'ا', 'ل', ' ', 'پ', 'ی', 'ش']], .seqs [.number, .lit [' ', 'م', 'ا', 'ه', ' ', 'ب', 'ع', 'د']], .seqs [.number, .lit [' ', 'م', 'ا', 'ه', ' ', 'پ', 'ی', 'ش']]]), .grp 3 (.alts [.eos, .cls true [.letter, .mark, .digit], .lit ['_']])], 3),
  rxExact := some (.seqs [.bos, .grp 1 (.alts [.seqs [.number, .lit [' ', 'ث', 'ا', 'ن', 'ی', 'ه', ' ', 'ب', 'ع', 'د']], .seqs [.number, .lit [' ', 'ث', 'ا', 'ن', 'ی', 'ه', ' ', 'پ', 'ی', 'ش']], .seqs [.number, .lit [' ', 'د', 'ق', 'ی', 'ق', 'ه', ' ', 'ب', 'ع', 'د']], .seqs [.number, .lit [' ', 'د', 'ق', 'ی', 'ق', 'ه', ' ', 'پ', 'ی', 'ش']], .seqs [.number, .lit [' ', 'س', 'ا', 'ع', 'ت', ' ', 'ب', 'ع', 'د']], .seqs [.number, .lit [' ', 'س', 'ا', 'ع', 'ت', ' ', 'پ', 'ی', 'ش']], .seqs [.number, .lit [' ', 'ه', 'ف', 'ت', 'ه', ' ', 'ب', 'ع', 'د']], .seqs [.number, .lit [' ', 'ه', 'ف', 'ت', 'ه', ' ', 'پ', 'ی', 'ش']], .seqs [.number, .lit [' ', 'ر', 'و', 'ز', ' ', 'ب', 'ع', 'د']], .seqs [.number, .lit [' ', 'ر', 'و', 'ز', ' ', 'پ', 'ی', 'ش']], .seqs [.number, .lit [' ', 'س', 'ا', 'ل', ' ', 'ب', 'ع', 'د']], .seqs [.number, .lit [' ', 'س', 'ا', 'ل', ' ', 'پ', 'ی', 'ش']], .seqs [.number, .lit [' ', 'م', 'ا', 'ه', ' ', 'ب', 'ع', 'د']], .seqs [.number, .lit [' ', 'م', 'ا', 'ه', ' ', 'پ', 'ی', 'ش']]]), .eos]),
  knownWords :=
   [['ه', 'ف', 'ت', 'ه', ' ', 'ا', 'ی', 'ن', 'د', 'ه'], ['ه', 'ف', 'ت', 'ه', ' ', 'گ', 'ذ', 'ش', 'ت', 'ه'], ['ه', 'م', 'ی', 'ن', ' ', 'د', 'ق', 'ی', 'ق', 'ه'], ['س', 'ا', 'ل', ' ', 'ا', 'ی', 'ن', 'د', 'ه'], ['س', 'ا', 'ل', ' ', 'گ', 'ذ', 'ش', 'ت', 'ه'], ['ق', 'ب', 'ل', (Char.ofNat 0x200c), 'ا', 'ز', 'ظ', 'ه', 'ر'], ['م', 'ا', 'ه', ' ', 'ا', 'ی', 'ن', 'د', 'ه'], ['م', 'ا', 'ه', ' ', 'گ', 'ذ', 'ش', 'ت', 'ه'], ['ه', 'م', 'ی', 'ن', ' ', 'س', 'ا', 'ع', 'ت'], ['چ', 'ه', 'ا', 'ر', ' ', 'ش', 'ن', 'ب', 'ه'], ['ا', 'ی', 'ن', ' ', 'ه', 'ف', 'ت', 'ه'], ['ب', 'ع', 'د', 'ا', 'ز', 'ظ', 'ه', 'ر'], ['ر', 'و', 'ز', ' ', 'ش', 'ن', 'ب', 'ه'], ['پ', 'ن', 'ج', ' ', 'ش', 'ن', 'ب', 'ه'], ['چ', 'ه', 'ا', 'ر', 'ش', 'ن', 'ب', 'ه'], ['ا', 'ی', 'ن', ' ', 'م', 'ا', 'ه'], ['د', 'و', ' ', 'ش', 'ن', 'ب', 'ه'], ['س', 'ه', (Char.ofNat 0x200c), 'ش', 'ن', 'ب', 'ه'], ['س', 'پ', 'ت', 'ا', 'م', 'ب', 'ر'], ['م', 'ا', 'ه', ' ', 'پ', 'ی', 'ش'], ['پ', 'ن', 'ج', 'ش', 'ن', 'ب', 'ه'], ['ا', 'ک', 'ت', 'و', 'ب', 'ر'], ['د', 'س', 'ا', 'م', 'ب', 'ر'], ['د', 'و', 'ش', 'ن', 'ب', 'ه'], ['س', 'ه', 'ش', 'ن', 'ب', 'ه'], ['س', 'پ', 'ت', 'م', 'ب', 'ر'], ['ف', 'ب', 'ر', 'و', 'ر', 'ی'], ['ن', 'و', 'ا', 'م', 'ب', 'ر'], ['ژ', 'ا', 'ن', 'و', 'ی', 'ه'], ['ی', 'ک', 'ش', 'ن', 'ب', 'ه'], ['ا', 'م', 'ر', 'و', 'ز'], ['ا', 'م', 'س', 'ا', 'ل'], ['ا', 'و', 'ر', 'ی', 'ل'], ['ا', 'پ', 'ر', 'ی', 'ل'], ['ا', 'ک', 'ت', 'ب', 'ر'], ['ا', 'ک', 'ن', 'و', 'ن'], ['ث', 'ا', 'ن', 'ی', 'ه'], ['ج', 'ن', 'و', 'ر', 'ی'], ['ج', 'و', 'ل', 'ا', 'ی'], ['د', 'س', 'م', 'ب', 'ر'], ['د', 'ق', 'ی', 'ق', 'ه'], ['د', 'ی', 'ر', 'و', 'ز'], ['ف', 'و', 'ر', 'ی', 'ه'], ['ن', 'و', 'م', 'ب', 'ر'], ['ژ', 'و', 'ي', 'ی', 'ه'], ['ا', 'گ', 'س', 'ت'], ['ج', 'م', 'ع', 'ه'], ['س', 'ا', 'ع', 'ت'], ['ش', 'ن', 'ب', 'ه'], ['ف', 'ر', 'د', 'ا'], ['م', 'ا', 'ر', 'س'], ['م', 'ا', 'ر', 'چ'], ['ه', 'ف', 'ت', 'ه'], ['ژ', 'و', 'ي', 'ن'], ['g', 'm', 't'], ['u', 't', 'c'], ['ا', 'و', 'ت'], ['ج', 'و', 'ن'], ['د', 'و', 'م'], ['ر', 'و', 'ز'], ['س', 'ا', 'ل'], ['م', 'ا', 'ه'], ['پ', 'ی', 'ش'], ['a', 'm'], ['p', 'm'], ['ب', 'ظ'], ['د', 'ر'], ['ق', 'ظ'], ['م', 'ه'], ['م', 'ی'], [' '], ['\''], ['+'], [','], ['-'], ['.'], ['/'], [':'], [';'], ['@'], ['['], [']'], ['z'], ['|'], ['د']] }

/-- internal/data/fa.go: `fa_AF_Locale`. -/
def fa_AFLang : LangData := { fa_AFDict with
  knownWords :=
   [['ه', 'ف', 'ت', 'ه', ' ', 'ا', 'ی', 'ن', 'د', 'ه'], ['ه', 'ف', 'ت', 'ه', ' ', 'گ', 'ذ', 'ش', 'ت', 'ه'], ['ه', 'م', 'ی', 'ن', ' ', 'د', 'ق', 'ی', 'ق', 'ه'], ['س', 'ا', 'ل', ' ', 'ا', 'ی', 'ن', 'د', 'ه'], ['س', 'ا', 'ل', ' ', 'گ', 'ذ', 'ش', 'ت', 'ه'], ['ق', 'ب', 'ل', (Char.ofNat 0x200c), 'ا', 'ز', 'ظ', 'ه', 'ر'], ['م', 'ا', 'ه', ' ', 'ا', 'ی', 'ن', 'د', 'ه'], ['م', 'ا', 'ه', ' ', 'گ', 'ذ', 'ش', 'ت', 'ه'], ['ه', 'م', 'ی', 'ن', ' ', 'س', 'ا', 'ع', 'ت'], ['چ', 'ه', 'ا', 'ر', ' ', 'ش', 'ن', 'ب', 'ه'], ['ا', 'ی', 'ن', ' ', 'ه', 'ف', 'ت', 'ه'], ['ب', 'ع', 'د', 'ا', 'ز', 'ظ', 'ه', 'ر'], ['ر', 'و', 'ز', ' ', 'ش', 'ن', 'ب', 'ه'], ['پ', 'ن', 'ج', ' ', 'ش', 'ن', 'ب', 'ه'], ['چ', 'ه', 'ا', 'ر', 'ش', 'ن', 'ب', 'ه'], ['ا', 'ی', 'ن', ' ', 'م', 'ا', 'ه'], ['د', 'و', ' ', 'ش', 'ن', 'ب', 'ه'], ['س', 'ه', (Char.ofNat 0x200c), 'ش', 'ن', 'ب', 'ه'], ['س', 'پ', 'ت', 'ا', 'م', 'ب', 'ر'], ['م', 'ا', 'ه', ' ', 'پ', 'ی', 'ش'], ['پ', 'ن', 'ج', 'ش', 'ن', 'ب', 'ه'], ['ا', 'ک', 'ت', 'و', 'ب', 'ر'], ['د', 'س', 'ا', 'م', 'ب', 'ر'], ['د', 'و', 'ش', 'ن', 'ب', 'ه'], ['س', 'ه', 'ش', 'ن', 'ب', 'ه'], ['س', 'پ', 'ت', 'م', 'ب', 'ر'], ['ف', 'ب', 'ر', 'و', 'ر', 'ی'], ['ن', 'و', 'ا', 'م', 'ب', 'ر'], ['ژ', 'ا', 'ن', 'و', 'ی', 'ه'], ['ی', 'ک', 'ش', 'ن', 'ب', 'ه'], ['ا', 'م', 'ر', 'و', 'ز'], ['ا', 'م', 'س', 'ا', 'ل'], ['ا', 'و', 'ر', 'ی', 'ل'], ['ا', 'پ', 'ر', 'ی', 'ل'], ['ا', 'ک', 'ت', 'ب', 'ر'], ['ا', 'ک', 'ن', 'و', 'ن'], ['ث', 'ا', 'ن', 'ی', 'ه'], ['ج', 'ن', 'و', 'ر', 'ی'], ['ج', 'و', 'ل', 'ا', 'ی'], ['د', 'س', 'م', 'ب', 'ر'], ['د', 'ق', 'ی', 'ق', 'ه'], ['د', 'ی', 'ر', 'و', 'ز'], ['ف', 'و', 'ر', 'ی', 'ه'], ['ن', 'و', 'م', 'ب', 'ر'], ['ژ', 'و', 'ي', 'ی', 'ه'], ['ا', 'گ', 'س', 'ت'], ['ج', 'م', 'ع', 'ه'], ['س', 'ا', 'ع', 'ت'], ['ش', 'ن', 'ب', 'ه'], ['ف', 'ر', 'د', 'ا'], ['م', 'ا', 'ر', 'س'], ['م', 'ا', 'ر', 'چ'], ['ه', 'ف', 'ت', 'ه'], ['ژ', 'و', 'ي', 'ن'], ['g', 'm', 't'], ['u', 't', 'c'], ['ا', 'و', 'ت'], ['ج', 'ن', 'و'], ['ج', 'و', 'ل'], ['ج', 'و', 'ن'], ['د', 'س', 'م'], ['د', 'و', 'م'], ['ر', 'و', 'ز'], ['س', 'ا', 'ل'], ['م', 'ا', 'ه'], ['پ', 'ی', 'ش'], ['a', 'm'], ['p', 'm'], ['ب', 'ظ'], ['د', 'ر'], ['ق', 'ظ'], ['م', 'ه'], ['م', 'ی'], [' '], ['\''], ['+'], [','], ['-'], ['.'], ['/'], [':'], [';'], ['@'], ['['], [']'], ['z'], ['|'], ['د']] }

/-- internal/data/ff.go: `ff_Locale`. -/
def ffLang : LangData := { ffDict with
  knownWords :=
   [['t', 'h', 'i', 's', ' ', 'm', 'i', 'n', 'u', 't', 'e'], ['h', 'o', 'o', 'r', 'e', '-', 'b', 'i', 'i', 'r'], ['l', 'a', 's', 't', ' ', 'm', 'o', 'n', 't', 'h'], ['n', 'e', 'x', 't', ' ', 'm', 'o', 'n', 't', 'h'], ['t', 'h', 'i', 's', ' ', 'm', 'o', 'n', 't', 'h'], ['l', 'a', 's', 't', ' ', 'w', 'e', 'e', 'k'], ['l', 'a', 's', 't', ' ', 'y', 'e', 'a', 'r'], ['n', 'a', 'a', 's', 'a', 'a', 'n', 'd', 'e'], ['n', 'e', 'x', 't', ' ', 'w', 'e', 'e', 'k'], ['n', 'e', 'x', 't', ' ', 'y', 'e', 'a', 'r'], ['n', 'j', 'e', 's', 'l', 'a', 'a', 'r', 'e'], ['t', 'h', 'i', 's', ' ', 'h', 'o', 'u', 'r'], ['t', 'h', 'i', 's', ' ', 'w', 'e', 'e', 'k'], ['t', 'h', 'i', 's', ' ', 'y', 'e', 'a', 'r'], ['h', 'i', 't', 'a', 'a', 'n', 'd', 'e'], ['m', 'a', 'j', 'a', 'a', 'n', 'g', 'o'], ['m', 'a', 'w', 'b', 'a', 'a', 'r', 'e'], ['y', 'a', 'r', 'k', 'o', 'm', 'a', 'a'], ['k', 'i', 'k', 'i', 'i', 'ɗ', 'e'], ['y', 'o', 'n', 't', 'e', 'r', 'e'], ['a', 'a', 'ɓ', 'n', 'd', 'e'], ['d', 'u', 'u', 'j', 'a', 'l'], ['h', 'a', 'n', 'n', 'd', 'e'], ['j', 'a', 'ŋ', 'n', 'g', 'o'], ['m', 'a', 'w', 'n', 'd', 'e'], ['n', 'a', 'l', 'n', 'd', 'e'], ['s', 'e', 'e', 'ɗ', 't', 'o'], ['s', 'i', 'i', 'l', 't', 'o'], ['s', 'u', 'b', 'a', 'k', 'a'], ['b', 'o', 'w', 't', 'e'], ['c', 'o', 'l', 't', 'e'], ['h', 'a', 'ŋ', 'k', 'i'], ['h', 'o', 'ƴ', 'o', 'm'], ['j', 'o', 'l', 'a', 'l'], ['k', 'o', 'r', 's', 'e'], ['l', 'e', 'w', 'r', 'u'], ['m', 'b', 'o', 'o', 'y'], ['m', 'o', 'r', 's', 'o'], ['s', 'i', 'i', 'l', 'o'], ['w', 'a', 'k', 't', 'u'], ['d', 'e', 'w', 'o'], ['j', 'u', 'k', 'o'], ['a', 'a', 'ɓ'], ['b', 'o', 'w'], ['c', 'o', 'l'], ['d', 'e', 'w'], ['d', 'u', 'u'], ['g', 'm', 't'], ['h', 'b', 'i'], ['j', 'o', 'l'], ['j', 'u', 'k'], ['k', 'o', 'r'], ['m', 'a', 'w'], ['m', 'b', 'o'], ['m', 'o', 'r'], ['m', 'w', 'd'], ['n', 'a', 'a'], ['n', 'j', 'e'], ['n', 'o', 'w'], ['s', 'e', 'e'], ['s', 'i', 'i'], ['s', 'l', 't'], ['u', 't', 'c'], ['y', 'a', 'r'], ['a', 'm'], ['p', 'm'], [' '], ['\''], ['+'], [','], ['-'], ['.'], ['/'], [':'], [';'], ['@'], ['['], [']'], ['z'], ['|']] }

/-- internal/data/ff.go: `ff_CM_Locale`. -/
def ff_CMLang : LangData := ff_CMDict

/-- internal/data/ff.go: `ff_GN_Locale`. -/
def ff_GNLang : LangData := ff_GNDict

/-- internal/data/ff.go: `ff_MR_Locale`. -/
def ff_MRLang : LangData := ff_MRDict

/-- internal/data/fi.go: `fi_Locale`. -/
def fiLang : LangData := { fiDict with
  simplifications :=
   [(.seqs [.grp 1 (.alts [.bos, .noWord]), .grp 2 (.number), .lit [' '], .grp 3 (.alts [.lit ['s', 'e', 'k', 'u', 'n', 'n', 'i', 'n'], .lit ['s', 'e', 'k', 'u', 'n', 't', 'i', 'n'], .lit ['m', 'i', 'n', 'u', 'u', 't', 'i', 'n'], .lit ['t', 'u', 'n', 'n', 'i', 'n'], .lit ['p', 'a', 'i', 'v', 'a', 'n'], .lit ['v', 'i', 'i', 'k', 'o', 'n'], .lit ['k', 'u', 'u', 'k', 'a', 'u', 'd', 'e', 'n'], .lit ['v', 'u', 'o', 'd', 'e', 'n']]), .lit [' '], .grp 4 (.alts [.lit ['p', 'a', 'a', 's', 't', 'a'], .lit ['k', 'u', 'l', 'u', 't', 't', 'u', 'a']]), .grp 5 (.alts [.eos, .noWord])], [.ref 1, .ref 4, .lit [' '], .ref 2, .lit [' '], .ref 3, .ref 5])],
  relativeRegexes :=
   [(.seqs [.grp 1 (.number), .lit [' ', 'k', 'u', 'u', 'k', 'a', 'u', 'd', 'e', 'n', ' ', 'p', 'a', 'a', 's', 't', 'a']], [.lit ['i', 'n', ' '], .ref 1, .lit [' ', 'm', 'o', 'n', 't', 'h']]),
    (.seqs [.grp 1 (.number), .lit [' ', 'k', 'u', 'u', 'k', 'a', 'u', 't', 't', 'a', ' ', 's', 'i', 't', 't', 'e', 'n']], [.ref 1, .lit [' ', 'm', 'o', 'n', 't', 'h', ' ', 'a', 'g', 'o']]),
    (.seqs [.grp 1 (.number), .lit [' ', 'm', 'i', 'n', 'u', 'u', 't', 't', 'i', 'a', ' ', 's', 'i', 't', 't', 'e', 'n']], [.ref 1, .lit [' ', 'm', 'i', 'n', 'u', 't', 'e', ' ', 'a', 'g', 'o']]),
    (.seqs [.grp 1 (.number), .lit [' ', 'k', 'u', 'u', 'k', 'a', 'u', 's', 'i', ' ', 's', 'i', 't', 't', 'e', 'n']], [.ref 1, .lit [' ', 'm', 'o', 'n', 't', 'h', ' ', 'a', 'g', 'o']]),
    (.seqs [.grp 1 (.number), .lit [' ', 'm', 'i', 'n', 'u', 'u', 't', 'i', 'n', ' ', 'p', 'a', 'a', 's', 't', 'a']], [.lit ['i', 'n', ' '], .ref 1, .lit [' ', 'm', 'i', 'n', 'u', 't', 'e']]),
    (.seqs [.grp 1 (.number), .lit [' ', 'm', 'i', 'n', 'u', 'u', 't', 't', 'i', ' ', 's', 'i', 't', 't', 'e', 'n']], [.ref 1, .lit [' ', 'm', 'i', 'n', 'u', 't', 'e', ' ', 'a', 'g', 'o']]),
    (.seqs [.grp 1 (.number), .lit [' ', 's', 'e', 'k', 'u', 'n', 'n', 'i', 'n', ' ', 'p', 'a', 'a', 's', 't', 'a']], [.lit ['i', 'n', ' '], .ref 1, .lit [' ', 's', 'e', 'c', 'o', 'n', 'd']]),
    (.seqs [.grp 1 (.number), .lit [' ', 's', 'e', 'k', 'u', 'n', 't', 'i', 'a', ' ', 's', 'i', 't', 't', 'e', 'n']], [.ref 1, .lit [' ', 's', 'e', 'c', 'o', 'n', 'd', ' ', 'a', 'g', 'o']]),
    (.seqs [.grp 1 (.number), .lit [' ', 's', 'e', 'k', 'u', 'n', 't', 'i', ' ', 's', 'i', 't', 't', 'e', 'n']], [.ref 1, .lit [' ', 's', 'e', 'c', 'o', 'n', 'd', ' ', 'a', 'g', 'o']]),
    (.seqs [.grp 1 (.number), .lit [' ', 'v', 'i', 'i', 'k', 'k', 'o', 'a', ' ', 's', 'i', 't', 't', 'e', 'n']], [.ref 1, .lit [' ', 'w', 'e', 'e', 'k', ' ', 'a', 'g', 'o']]),
    (.seqs [.grp 1 (.number), .lit [' ', 'p', 'a', 'i', 'v', 'a', 'a', ' ', 's', 'i', 't', 't', 'e', 'n']], [.ref 1, .lit [' ', 'd', 'a', 'y', ' ', 'a', 'g', 'o']]),
    (.seqs [.grp 1 (.number), .lit [' ', 'p', 'a', 'i', 'v', 'a', 'n', ' ', 'p', 'a', 'a', 's', 't', 'a']], [.lit ['i', 'n', ' '], .ref 1, .lit [' ', 'd', 'a', 'y']]),
    (.seqs [.grp 1 (.number), .lit [' ', 't', 'u', 'n', 'n', 'i', 'n', ' ', 'p', 'a', 'a', 's', 't', 'a']], [.lit ['i', 'n', ' '], .ref 1, .lit [' ', 'h', 'o', 'u', 'r']]),
    (.seqs [.grp 1 (.number), .lit [' ', 't', 'u', 'n', 't', 'i', 'a', ' ', 's', 'i', 't', 't', 'e', 'n']], [.ref 1, .lit [' ', 'h', 'o', 'u', 'r', ' ', 'a', 'g', 'o']]),
    (.seqs [.grp 1 (.number), .lit [' ', 'v', 'i', 'i', 'k', 'k', 'o', ' ', 's', 'i', 't', 't', 'e', 'n']], [.ref 1, .lit [' ', 'w', 'e', 'e', 'k', ' ', 'a', 'g', 'o']]),
    (.seqs [.grp 1 (.number), .lit [' ', 'v', 'i', 'i', 'k', 'o', 'n', ' ', 'p', 'a', 'a', 's', 't', 'a']], [.lit ['i', 'n', ' '], .ref 1, .lit [' ', 'w', 'e', 'e', 'k']]),
    (.seqs [.grp 1 (.number), .lit [' ', 'v', 'u', 'o', 'd', 'e', 'n', ' ', 'p', 'a', 'a', 's', 't', 'a']], [.lit ['i', 'n', ' '], .ref 1, .lit [' ', 'y', 'e', 'a', 'r']]),
    (.seqs [.grp 1 (.number), .lit [' ', 'v', 'u', 'o', 't', 't', 'a', ' ', 's', 'i', 't', 't', 'e', 'n']], [.ref 1, .lit [' ', 'y', 'e', 'a', 'r', ' ', 'a', 'g', 'o']]),
    (.seqs [.grp 1 (.number), .lit [' ', 'p', 'a', 'i', 'v', 'a', ' ', 's', 'i', 't', 't', 'e', 'n']], [.ref 1, .lit [' ', 'd', 'a', 'y', ' ', 'a', 'g', 'o']]),
    (.seqs [.grp 1 (.number), .lit [' ', 't', 'u', 'n', 't', 'i', ' ', 's', 'i', 't', 't', 'e', 'n']], [.ref 1, .lit [' ', 'h', 'o', 'u', 'r', ' ', 'a', 'g', 'o']]),
    (.seqs [.grp 1 (.number), .lit [' ', 'v', 'u', 'o', 's', 'i', ' ', 's', 'i', 't', 't', 'e', 'n']], [.ref 1, .lit [' ', 'y', 'e', 'a', 'r', ' ', 'a', 'g', 'o']]),
    (.seqs [.grp 1 (.number), .lit [' ', 'm', 'i', 'n', ' ', 'p', 'a', 'a', 's', 't', 'a']], [.lit ['i', 'n', ' '], .ref 1, .lit [' ', 'm', 'i', 'n', 'u', 't', 'e']]),
    (.seqs [.grp 1 (.number), .lit [' ', 'm', 'i', 'n', ' ', 's', 'i', 't', 't', 'e', 'n']], [.ref 1, .lit [' ', 'm', 'i', 'n', 'u', 't', 'e', ' ', 'a', 'g', 'o']]),
    (.seqs [.grp 1 (.number), .lit [' ', 'k', 'k', ' ', 'p', 'a', 'a', 's', 't', 'a']], [.lit ['i', 'n', ' '], .ref 1, .lit [' ', 'm', 'o', 'n', 't', 'h']]),
    (.seqs [.grp 1 (.number), .lit [' ', 'k', 'k', ' ', 's', 'i', 't', 't', 'e', 'n']], [.ref 1, .lit [' ', 'm', 'o', 'n', 't', 'h', ' ', 'a', 'g', 'o']]),
    (.seqs [.grp 1 (.number), .lit [' ', 'p', 'v', ' ', 'p', 'a', 'a', 's', 't', 'a']], [.lit ['i', 'n', ' '], .ref 1, .lit [' ', 'd', 'a', 'y']]),
    (.seqs [.grp 1 (.number), .lit [' ', 'p', 'v', ' ', 's', 'i', 't', 't', 'e', 'n']], [.ref 1, .lit [' ', 'd', 'a', 'y', ' ', 'a', 'g', 'o']]),
    (.seqs [.grp 1 (.number), .lit [' ', 'v', 'k', ' ', 'p', 'a', 'a', 's', 't', 'a']], [.lit ['i', 'n', ' '], .ref 1, .lit [' ', 'w', 'e', 'e', 'k']]),
    (.seqs [.grp 1 (.number), .lit [' ', 'v', 'k', ' ', 's', 'i', 't', 't', 'e', 'n']], [.ref 1, .lit [' ', 'w', 'e', 'e', 'k', ' ', 'a', 'g', 'o']]),
    (.seqs [.grp 1 (.number), .lit [' ', 's', ' ', 'p', 'a', 'a', 's', 't', 'a']], [.lit ['i', 'n', ' '], .ref 1, .lit [' ', 's', 'e', 'c', 'o', 'n', 'd']]),
    (.seqs [.grp 1 (.number), .lit [' ', 's', ' ', 's', 'i', 't', 't', 'e', 'n']], [.ref 1, .lit [' ', 's', 'e', 'c', 'o', 'n', 'd', ' ', 'a', 'g', 'o']]),
    (.seqs [.grp 1 (.number), .lit [' ', 't', ' ', 'p', 'a', 'a', 's', 't', 'a']], [.lit ['i', 'n', ' '], .ref 1, .lit [' ', 'h', 'o', 'u', 'r']]),
    (.seqs [.grp 1 (.number), .lit [' ', 't', ' ', 's', 'i', 't', 't', 'e', 'n']], [.ref 1, .lit [' ', 'h', 'o', 'u', 'r', ' ', 'a', 'g', 'o']]),
    (.seqs [.grp 1 (.number), .lit [' ', 'v', ' ', 'p', 'a', 'a', 's', 't', 'a']], [.lit ['i', 'n', ' '], .ref 1, .lit [' ', 'y', 'e', 'a', 'r']]),
    (.seqs [.grp 1 (.number), .lit [' ', 'v', ' ', 's', 'i', 't', 't', 'e', 'n']], [.ref 1, .lit [' ', 'y', 'e', 'a', 'r', ' ', 'a', 'g', 'o']])],
  rxCombined := some (.seqs [.grp 1 (.alts [.bos, .cls true [.letter, .mark, .digit], .lit ['_']]), .grp 2 (.alts [.seqs [.number, .lit [' ', 'k', 'u', 'u', 'k', 'a', 'u', 'd', 'e', 'n', ' ', 'p', 'a', 'a', 's', 't', 'a']], .seqs [.number, .lit [' ', 'k', 'u', 'u', 'k', 'a', 'u', 't', 't', 'a', ' ', 's', 'i', 't', 't', 'e', 'n']], .seqs [.number, .lit [' ', 'm', 'i', 'n', 'u', 'u', 't', 't', 'i', 'a', ' ', 's', 'i', 't', 't', 'e', 'n']], .seqs [.number, .lit [' ', 'k', 'u', 'u', 'k', 'a', 'u', 's', 'i', ' ', 's', 'i', 't', 't', 'e', 'n']], .seqs [.number, .lit [' ', 'm', 'i', 'n', 'u', 'u', 't', 'i', 'n', ' ', 'p', 'a', 'a', 's', 't', 'a']], .seqs [.number, .lit [' ', 'm', 'i', 'n', 'u', 'u', 't', 't', 'i', ' ', 's', 'i', 't', 't', 'e', 'n']], .seqs [.number, .lit [' ', 's', 'e', 'k', 'u', 'n', 'n', 'i', 'n', ' ', 'p', 'a', 'a', 's', 't', 'a']], .seqs [.number, .lit [' ', 's', 'e', 'k', 'u', 'n', 't', 'i', 'a', ' ', 's', 'i', 't', 't', 'e', 'n']], .seqs [.number, .lit [' ', 's', 'e', 'k', 'u', 'n', 't', 'i', ' ', 's', 'i', 't', 't', 'e', 'n']], .seqs [.number, .lit [' ', 'v', 'i', 'i', 'k', 'k', 'o', 'a', ' ', 's', 'i', 't', 't', 'e', 'n']], .seqs [.number, .lit [' ', 'p', 'a', 'i', 'v', 'a', 'a', ' ', 's', 'i', 't', 't', 'e', 'n']], .seqs [.number, .lit [' ', 'p', 'a', 'i', 'v', 'a', 'n', ' ', 'p', 'a', 'a', 's', 't', 'a']], .seqs [.number, .lit [' ', 't', 'u', 'n', 'n', 'i', 'n', ' ', 'p', 'a', 'a', 's', 't', 'a']], .seqs [.number, .lit [' ', 't', 'u', 'n', 't', 'i', 'a', ' ', 's', 'i', 't', 't', 'e', 'n']], .seqs [.number, .lit [' ', 'v', 'i', 'i', 'k', 'k', 'o', ' ', 's', 'i', 't', 't', 'e', 'n']], .seqs [.number, .lit [' ', 'v', 'i', 'i', 'k', 'o', 'n', ' ', 'p', 'a', 'a', 's', 't', 'a']], .seqs [.number, .lit [' ', 'v', 'u', 'o', 'd', 'e', 'n', ' ', 'p', 'a', 'a', 's', 't', 'a']], .seqs [.number, .lit [' ', 'v', 'u', 'o', 't', 't', 'a', ' ', 's', 'i', 't', 't', 'e', 'n']], .seqs [.number, .lit [' ', 'p', 'a', 'i', 'v', 'a', ' ', 's', 'i', 't', 't', 'e', 'n']], .seqs [.number, .lit [' ', 't', 'u', 'n', 't', 'i', ' ', 's', 'i', 't', 't', 'e', 'n']], .seqs [.number, .lit [' ', 'v', 'u', 'o', 's', 'i', ' ', 's', 'i', 't', 't', 'e', 'n']], .seqs [.number, .lit [' ', 'm', 'i', 'n', ' ', 'p', 'a', 'a', 's', 't', 'a']], .seqs [.number, .lit [' ', 'm', 'i', 'n', ' ', 's', 'i', 't', 't', 'e', 'n']], .seqs [.number, .lit [' ', 'k', 'k', ' ', 'p', 'a', 'a', 's', 't', 'a']], .seqs [.number, .lit [' ', 'k', 'k', ' ', 's', 'i', 't', 't', 'e', 'n']], .seqs [.number, .lit [' ', 'p', 'v', ' ', 'p', 'a', 'a', 's', 't', 'a']], .seqs [.number, .lit [' ', 'p', 'v', ' ', 's', 'i', 't', 't', 'e', 'n']], .seqs [.number, .lit [' ', 'v', 'k', ' ', 'p', 'a', 'a', 's', 't', 'a']], .seqs [.number, .lit [' ', 'v', 'k', ' ', 's', 'i', 't', 't', 'e', 'n']], .seqs [.number, .lit [' ', 's', ' ', 'p', 'a', 'a', 's', 't', 'a']], .seqs [.number, .lit [' ', 's', ' ', 's', 'i', 't', 't', 'e', 'n']], .seqs [.number, .lit [' ', 't', ' ', 'p', 'a', 'a', 's', 't', 'a']], .seqs [.number, .lit [' ', 't', ' ', 's', 'i', 't', 't', 'e', 'n']], .seqs [.number, .lit [' ', 'v', ' ', 'p', 'a', 'a', 's', 't', 'a']], .seqs [.number, .lit [' ', 'v', ' ', 's', 'i', 't', 't', 'e', 'n']]]), .grp 3 (.alts [.eos, .cls true [.letter, .mark, .digit], .lit ['_']])], 3),
  rxExact := some (.seqs [.bos, .grp 1 (.alts [.seqs [.number, .lit [' ', 'k', 'u', 'u', 'k', 'a', 'u', 'd', 'e', 'n', ' ', 'p', 'a', 'a', 's', 't', 'a']], .seqs [.number, .lit [' ', 'k', 'u', 'u', 'k', 'a', 'u', 't', 't', 'a', ' ', 's', 'i', 't', 't', 'e', 'n']], .seqs [.number, .lit [' ', 'm', 'i', 'n', 'u', 'u', 't', 't', 'i', 'a', ' ', 's', 'i', 't', 't', 'e', 'n']], .seqs [.number, .lit [' ', 'k', 'u', 'u', 'k', 'a', 'u', 's', 'i', ' ', 's', 'i', 't', 't', 'e', 'n']], .seqs [.number, .lit [' ', 'm', 'i', 'n', 'u', 'u', 't', 'i', 'n', ' ', 'p', 'a', 'a', 's', 't', 'a']], .seqs [.number, .lit [' ', 'm', 'i', 'n', 'u', 'u', 't', 't', 'i', ' ', 's', 'i', 't', 't', 'e', 'n']], .seqs [.number, .lit [' ', 's', 'e', 'k', 'u', 'n', 'n', 'i', 'n', ' ', 'p', 'a', 'a', 's', 't', 'a']], .seqs [.number, .lit [' ', 's', 'e', 'k', 'u', 'n', 't', 'i', 'a', ' ', 's', 'i', 't', 't', 'e', 'n']], .seqs [.number, .lit [' ', 's', 'e', 'k', 'u', 'n', 't', 'i', ' ', 's', 'i', 't', 't', 'e', 'n']], .seqs [.number, .lit [' ', 'v', 'i', 'i', 'k', 'k', 'o', 'a', ' ', 's', 'i', 't', 't', 'e', 'n']], .seqs [.number, .lit [' ', 'p', 'a', 'i', 'v', 'a', 'a', ' ', 's', 'i', 't', 't', 'e', 'n']], .seqs [.number, .lit [' ', 'p', 'a', 'i', 'v', 'a', 'n', ' ', 'p', 'a', 'a', 's', 't', 'a']], .seqs [.number, .lit [' ', 't', 'u', 'n', 'n', 'i', 'n', ' ', 'p', 'a', 'a', 's', 't', 'a']], .seqs [.number, .lit [' ', 't', 'u', 'n', 't', 'i', 'a', ' ', 's', 'i', 't', 't', 'e', 'n']], .seqs [.number, .lit [' ', 'v', 'i', 'i', 'k', 'k', 'o', ' ', 's', 'i', 't', 't', 'e', 'n']], .seqs [.number, .lit [' ', 'v', 'i', 'i', 'k', 'o', 'n', ' ', 'p', 'a', 'a', 's', 't', 'a']], .seqs [.number, .lit [' ', 'v', 'u', 'o', 'd', 'e', 'n', ' ', 'p', 'a', 'a', 's', 't', 'a']], .seqs [.number, .lit [' ', 'v', 'u', 'o', 't', 't', 'a', ' ', 's', 'i', 't', 't', 'e', 'n']], .seqs [.number, .lit [' ', 'p', 'a', 'i', 'v', 'a', ' ', 's', 'i', 't', 't', 'e', 'n']], .seqs [.number, .lit [' ', 't', 'u', 'n', 't', 'i', ' ', 's', 'i', 't', 't', 'e', 'n']], .seqs [.number, .lit [' ', 'v', 'u', 'o', 's', 'i', ' ', 's', 'i', 't', 't', 'e', 'n']], .seqs [.number, .lit [' ', 'm', 'i', 'n', ' ', 'p', 'a', 'a', 's', 't', 'a']], .seqs [.number, .lit [' ', 'm', 'i', 'n', ' ', 's', 'i', 't', 't', 'e', 'n']], .seqs [.number, .lit [' ', 'k', 'k', ' ', 'p', 'a', 'a', 's', 't', 'a']], .seqs [.number, .lit [' ', 'k', 'k', ' ', 's', 'i', 't', 't', 'e', 'n']], .seqs [.number, .lit [' ', 'p', 'v', ' ', 'p', 'a', 'a', 's', 't', 'a']], .seqs [.number, .lit [' ', 'p', 'v', ' ', 's', 'i', 't', 't', 'e', 'n']], .seqs [.number, .lit [' ', 'v', 'k', ' ', 'p', 'a', 'a', 's', 't', 'a']], .seqs [.number, .lit [' ', 'v', 'k', ' ', 's', 'i', 't', 't', 'e', 'n']], .seqs [.number, .lit [' ', 's', ' ', 'p', 'a', 'a', 's', 't', 'a']], .seqs [.number, .lit [' ', 's', ' ', 's', 'i', 't', 't', 'e', 'n']], .seqs [.number, .lit [' ', 't', ' ', 'p', 'a', 'a', 's', 't', 'a']], .seqs [.number, .lit [' ', 't', ' ', 's', 'i', 't', 't', 'e', 'n']], .seqs [.number, .lit [' ', 'v', ' ', 'p', 'a', 'a', 's', 't', 'a']], .seqs [.number, .lit [' ', 'v', ' ', 's', 'i', 't', 't', 'e', 'n']]]), .eos]),
  knownWords :=
   [['t', 'a', 'm', 'a', 'n', ' ', 'm', 'i', 'n', 'u', 'u', 't', 'i', 'n', ' ', 'a', 'i', 'k', 'a', 'n', 'a'], ['t', 'a', 'm', 'a', 'n', ' ', 't', 'u', 'n', 'n', 'i', 'n', ' ', 'a', 'i', 'k', 'a', 'n', 'a'], ['m', 'i', 'n', 'u', 'u', 't', 'i', 'n', ' ', 's', 'i', 's', 'a', 'l', 'l', 'a'], ['t', 'o', 'i', 's', 's', 'a', ' ', 'v', 'i', 'i', 'k', 'o', 'l', 'l', 'a'], ['t', 'a', 'l', 'l', 'a', ' ', 'v', 'i', 'i', 'k', 'o', 'l', 'l', 'a'], ['t', 'o', 'i', 's', 's', 'a', ' ', 'p', 'a', 'i', 'v', 'a', 'n', 'a'], ['t', 'u', 'n', 'n', 'i', 'n', ' ', 's', 'i', 's', 'a', 'l', 'l', 'a'], ['v', 'i', 'i', 'm', 'e', ' ', 'v', 'i', 'i', 'k', 'o', 'l', 'l', 'a'], ['e', 'n', 's', 'i', ' ', 'v', 'i', 'i', 'k', 'o', 'l', 'l', 'a'], ['k', 'e', 's', 'k', 'i', 'v', 'i', 'i', 'k', 'k', 'o', 'n', 'a'], ['t', 'o', 'i', 's', 's', 'a', ' ', 'k', 'u', 'u', 's', 's', 'a'], ['t', 'o', 'i', 's', 's', 'a', ' ', 'v', 'u', 'o', 'n', 'n', 'a'], ['m', 'a', 'a', 'l', 'i', 's', 'k', 'u', 'u', 's', 's', 'a'], ['m', 'a', 'r', 'r', 'a', 's', 'k', 'u', 'u', 's', 's', 'a'], ['t', 'a', 's', 's', 'a', ' ', 'k', 'u', 'u', 's', 's', 'a'], ['v', 'i', 'i', 'm', 'e', ' ', 'k', 'u', 'u', 's', 's', 'a'], ['v', 'i', 'i', 'm', 'e', ' ', 'v', 'u', 'o', 'n', 'n', 'a'], ['e', 'n', 's', 'i', ' ', 'k', 'u', 'u', 's', 's', 'a'], ['e', 'n', 's', 'i', ' ', 'v', 'u', 'o', 'n', 'n', 'a'], ['h', 'e', 'i', 'n', 'a', 'k', 'u', 'u', 's', 's', 'a'], ['h', 'e', 'l', 'm', 'i', 'k', 'u', 'u', 's', 's', 'a'], ['h', 'u', 'h', 't', 'i', 'k', 'u', 'u', 's', 's', 'a'], ['j', 'o', 'u', 'l', 'u', 'k', 'u', 'u', 's', 's', 'a'], ['k', 'e', 's', 'k', 'i', 'v', 'i', 'i', 'k', 'k', 'o'], ['m', 'a', 'a', 'l', 'i', 's', 'k', 'u', 'u', 't', 'a'], ['m', 'a', 'a', 'n', 'a', 'n', 't', 'a', 'i', 'n', 'a'], ['m', 'a', 'r', 'r', 'a', 's', 'k', 'u', 'u', 't', 'a'], ['p', 'e', 'r', 'j', 'a', 'n', 't', 'a', 'i', 'n', 'a'], ['s', 'u', 'n', 'n', 'u', 'n', 't', 'a', 'i', 'n', 'a'], ['t', 'a', 'm', 'm', 'i', 'k', 'u', 'u', 's', 's', 'a'], ['t', 'a', 'n', 'a', ' ', 'v', 'u', 'o', 'n', 'n', 'a'], ['t', 'o', 'u', 'k', 'o', 'k', 'u', 'u', 's', 's', 'a'], ['h', 'e', 'i', 'n', 'a', 'k', 'u', 'u', 't', 'a'], ['h', 'e', 'l', 'm', 'i', 'k', 'u', 'u', 't', 'a'], ['h', 'u', 'h', 't', 'i', 'k', 'u', 'u', 't', 'a'], ['j', 'o', 'u', 'l', 'u', 'k', 'u', 'u', 't', 'a'], ['k', 'e', 's', 'a', 'k', 'u', 'u', 's', 's', 'a'], ['l', 'a', 'u', 'a', 'n', 't', 'a', 'i', 'n', 'a'], ['l', 'o', 'k', 'a', 'k', 'u', 'u', 's', 's', 'a'], ['s', 'y', 'y', 's', 'k', 'u', 'u', 's', 's', 'a'], ['t', 'a', 'm', 'm', 'i', 'k', 'u', 'u', 't', 'a'], ['t', 'o', 'u', 'k', 'o', 'k', 'u', 'u', 't', 'a'], ['e', 'l', 'o', 'k', 'u', 'u', 's', 's', 'a'], ['k', 'e', 's', 'a', 'k', 'u', 'u', 't', 'a'], ['k', 'u', 'u', 'k', 'a', 'u', 'd', 'e', 'n'], ['k', 'u', 'u', 'k', 'a', 'u', 't', 't', 'a'], ['l', 'o', 'k', 'a', 'k', 'u', 'u', 't', 'a'], ['m', 'a', 'a', 'l', 'i', 's', 'k', 'u', 'u'], ['m', 'a', 'a', 'n', 'a', 'n', 't', 'a', 'i'], ['m', 'a', 'r', 'r', 'a', 's', 'k', 'u', 'u'], ['m', 'i', 'n', 'u', 'u', 't', 't', 'i', 'a'], ['p', 'e', 'r', 'j', 'a', 'n', 't', 'a', 'i'], ['s', 'e', 'k', 'u', 'n', 't', 't', 'i', 'a'], ['s', 'u', 'n', 'n', 'u', 'n', 't', 'a', 'i'], ['s', 'y', 'y', 's', 'k', 'u', 'u', 't', 'a'], ['t', 'i', 'i', 's', 't', 'a', 'i', 'n', 'a'], ['t', 'o', 'r', 's', 't', 'a', 'i', 'n', 'a'], ['e', 'l', 'o', 'k', 'u', 'u', 't', 'a'], ['h', 'e', 'i', 'n', 'a', 'k', 'u', 'u'], ['h', 'e', 'l', 'm', 'i', 'k', 'u', 'u'], ['h', 'u', 'h', 't', 'i', 'k', 'u', 'u'], ['h', 'u', 'o', 'm', 'e', 'n', 'n', 'a'], ['j', 'o', 'u', 'l', 'u', 'k', 'u', 'u'], ['k', 'u', 'l', 'u', 't', 't', 'u', 'a'], ['k', 'u', 'u', 'k', 'a', 'u', 's', 'i'], ['l', 'a', 'u', 'a', 'n', 't', 'a', 'i'], ['m', 'i', 'n', 'u', 'u', 't', 'i', 'n'], ['m', 'i', 'n', 'u', 'u', 't', 't', 'i'], ['s', 'e', 'k', 'u', 'n', 'n', 'i', 'n'], ['s', 'e', 'k', 'u', 'n', 't', 'i', 'a'], ['s', 'e', 'k', 'u', 'n', 't', 'i', 'n'], ['s', 'e', 'k', 'u', 'n', 't', 't', 'i'], ['t', 'a', 'l', 'l', 'a', ' ', 'v', 'k'], ['t', 'a', 'm', 'm', 'i', 'k', 'u', 'u'], ['t', 'a', 's', 's', 'a', ' ', 'k', 'k'], ['t', 'o', 'u', 'k', 'o', 'k', 'u', 'u'], ['v', 'i', 'i', 'm', 'e', ' ', 'k', 'k'], ['v', 'i', 'i', 'm', 'e', ' ', 'v', 'k'], ['e', 'n', 's', 'i', ' ', 'k', 'k'], ['e', 'n', 's', 'i', ' ', 'v', 'k'], ['k', 'e', 's', 'a', 'k', 'u', 'u'], ['l', 'o', 'k', 'a', 'k', 'u', 'u'], ['m', 'a', 'a', 'l', 'i', 's', 'k'], ['m', 'a', 'r', 'r', 'a', 's', 'k'], ['s', 'e', 'k', 'u', 'n', 't', 'i'], ['s', 'y', 'y', 's', 'k', 'u', 'u'], ['t', 'i', 'i', 's', 't', 'a', 'i'], ['t', 'o', 'r', 's', 't', 'a', 'i'], ['v', 'i', 'i', 'k', 'k', 'o', 'a'], ['v', 'i', 'i', 'm', 'e', ' ', 'v'], ['e', 'l', 'o', 'k', 'u', 'u'], ['e', 'n', 's', 'i', ' ', 'v'], ['h', 'e', 'i', 'n', 'a', 'k'], ['h', 'e', 'l', 'm', 'i', 'k'], ['h', 'u', 'h', 't', 'i', 'k'], ['j', 'o', 'u', 'l', 'u', 'k'], ['m', 'a', 'a', 'l', 'i', 's'], ['m', 'a', 'r', 'r', 'a', 's'], ['p', 'a', 'a', 's', 't', 'a'], ['p', 'a', 'i', 'v', 'a', 'a'], ['p', 'a', 'i', 'v', 'a', 'n'], ['s', 'i', 't', 't', 'e', 'n'], ['t', 'a', 'm', 'm', 'i', 'k'], ['t', 'a', 'n', 'a', ' ', 'v'], ['t', 'a', 'n', 'a', 'a', 'n'], ['t', 'o', 'u', 'k', 'o', 'k'], ['t', 'u', 'n', 'n', 'i', 'n'], ['t', 'u', 'n', 't', 'i', 'a'], ['v', 'i', 'i', 'k', 'k', 'o'], ['v', 'i', 'i', 'k', 'o', 'n'], ['v', 'u', 'o', 'd', 'e', 'n'], ['v', 'u', 'o', 'n', 'n', 'a'], ['v', 'u', 'o', 't', 't', 'a'], ['e', 'i', 'l', 'e', 'n'], ['h', 'e', 'i', 'n', 'a'], ['h', 'e', 'l', 'm', 'i'], ['h', 'u', 'h', 't', 'i'], ['j', 'o', 'u', 'l', 'u'], ['k', 'e', 's', 'a', 'k'], ['l', 'o', 'k', 'a', 'k'], ['p', 'a', 'i', 'v', 'a'], ['s', 'y', 'y', 's', 'k'], ['t', 'a', 'm', 'm', 'i'], ['t', 'o', 'u', 'k', 'o'], ['t', 'u', 'n', 't', 'i'], ['v', 'u', 'o', 's', 'i'], ['e', 'l', 'o', 'k'], ['h', 'u', 'o', 'm'], ['k', 'e', 's', 'a'], ['l', 'o', 'k', 'a'], ['p', 'v', 'a', 'a'], ['s', 'y', 'y', 's'], ['e', 'l', 'o'], ['g', 'm', 't'], ['m', 'i', 'n'], ['n', 'y', 't'], ['p', 'v', 'a'], ['u', 't', 'c'], ['v', 'k', 'o'], [':', 'n'], ['a', 'm'], ['a', 'p'], ['i', 'p'], ['k', 'e'], ['k', 'k'], ['l', 'a'], ['m', 'a'], ['p', 'e'], ['p', 'm'], ['p', 'v'], ['s', 'u'], ['t', 'i'], ['t', 'o'], ['v', 'k'], ['v', 'v'], [' '], ['\''], ['+'], [','], ['-'], ['.'], ['/'], [':'], [';'], ['@'], ['['], [']'], ['p'], ['s'], ['t'], ['v'], ['z'], ['|']] }

/-- internal/data/fil.go: `fil_Locale`. -/
def filLang : LangData := { filDict with
  relativeRegexes :=
   [(.seqs [.grp 1 (.number), .lit [' ', 's', 'e', 'g', 'u', 'n', 'd', 'o', ' ', 'a', 'n', 'g', ' ', 'n', 'a', 'k', 'a', 'l', 'i', 'p', 'a', 's']], [.ref 1, .lit [' ', 's', 'e', 'c', 'o', 'n', 'd', ' ', 'a', 'g', 'o']]),
    (.seqs [.grp 1 (.number), .lit [' ', 'l', 'i', 'n', 'g', 'g', 'o', ' ', 'a', 'n', 'g', ' ', 'n', 'a', 'k', 'a', 'l', 'i', 'p', 'a', 's']], [.ref 1, .lit [' ', 'w', 'e', 'e', 'k', ' ', 'a', 'g', 'o']]),
    (.seqs [.grp 1 (.number), .lit [' ', 'm', 'i', 'n', 'u', 't', 'o', ' ', 'a', 'n', 'g', ' ', 'n', 'a', 'k', 'a', 'l', 'i', 'p', 'a', 's']], [.ref 1, .lit [' ', 'm', 'i', 'n', 'u', 't', 'e', ' ', 'a', 'g', 'o']]),
    (.seqs [.grp 1 (.number), .lit [' ', 'b', 'u', 'w', 'a', 'n', ' ', 'a', 'n', 'g', ' ', 'n', 'a', 'k', 'a', 'l', 'i', 'p', 'a', 's']], [.ref 1, .lit [' ', 'm', 'o', 'n', 't', 'h', ' ', 'a', 'g', 'o']]),
    (.seqs [.grp 1 (.number), .lit [' ', 'a', 'r', 'a', 'w', ' ', 'a', 'n', 'g', ' ', 'n', 'a', 'k', 'a', 'l', 'i', 'p', 'a', 's']], [.ref 1, .lit [' ', 'd', 'a', 'y', ' ', 'a', 'g', 'o']]),
    (.seqs [.grp 1 (.number), .lit [' ', 'o', 'r', 'a', 's', ' ', 'a', 'n', 'g', ' ', 'n', 'a', 'k', 'a', 'l', 'i', 'p', 'a', 's']], [.ref 1, .lit [' ', 'h', 'o', 'u', 'r', ' ', 'a', 'g', 'o']]),
    (.seqs [.grp 1 (.number), .lit [' ', 't', 'a', 'o', 'n', ' ', 'a', 'n', 'g', ' ', 'n', 'a', 'k', 'a', 'l', 'i', 'p', 'a', 's']], [.ref 1, .lit [' ', 'y', 'e', 'a', 'r', ' ', 'a', 'g', 'o']]),
    (.seqs [.grp 1 (.number), .lit [' ', 'm', 'i', 'n', ' ', 'a', 'n', 'g', ' ', 'n', 'a', 'k', 'a', 'l', 'i', 'p', 'a', 's']], [.ref 1, .lit [' ', 'm', 'i', 'n', 'u', 't', 'e', ' ', 'a', 'g', 'o']]),
    (.seqs [.grp 1 (.number), .lit [' ', 's', 'e', 'g', ' ', 'a', 'n', 'g', ' ', 'n', 'a', 'k', 'a', 'l', 'i', 'p', 'a', 's']], [.ref 1, .lit [' ', 's', 'e', 'c', 'o', 'n', 'd', ' ', 'a', 'g', 'o']]),
    (.seqs [.grp 1 (.number), .lit [' ', 'o', 'r', 'a', 's', ' ', 'n', 'a', 'k', 'a', 'l', 'i', 'p', 'a', 's']], [.ref 1, .lit [' ', 'h', 'o', 'u', 'r', ' ', 'a', 'g', 'o']]),
    (.seqs [.grp 1 (.number), .lit [' ', 's', 'e', 'g', ' ', 'n', 'a', 'k', 'a', 'l', 'i', 'p', 'a', 's']], [.ref 1, .lit [' ', 's', 'e', 'c', 'o', 'n', 'd', ' ', 'a', 'g', 'o']]),
    (.seqs [.lit ['s', 'a', ' '], .grp 1 (.number), .lit [' ', 's', 'e', 'g', 'u', 'n', 'd', 'o']], [.lit ['i', 'n', ' '], .ref 1, .lit [' ', 's', 'e', 'c', 'o', 'n', 'd']]),
    (.seqs [.lit ['s', 'a', ' '], .grp 1 (.number), .lit [' ', 'l', 'i', 'n', 'g', 'g', 'o']], [.lit ['i', 'n', ' '], .ref 1, .lit [' ', 'w', 'e', 'e', 'k']]),
    (.seqs [.lit ['s', 'a', ' '], .grp 1 (.number), .lit [' ', 'm', 'i', 'n', 'u', 't', 'o']], [.lit ['i', 'n', ' '], .ref 1, .lit [' ', 'm', 'i', 'n', 'u', 't', 'e']]),
    (.seqs [.lit ['s', 'a', ' '], .grp 1 (.number), .lit [' ', 'b', 'u', 'w', 'a', 'n']], [.lit ['i', 'n', ' '], .ref 1, .lit [' ', 'm', 'o', 'n', 't', 'h']]),
    (.seqs [.lit ['s', 'a', ' '], .grp 1 (.number), .lit [' ', 'a', 'r', 'a', 'w']], [.lit ['i', 'n', ' '], .ref 1, .lit [' ', 'd', 'a', 'y']]),
    (.seqs [.lit ['s', 'a', ' '], .grp 1 (.number), .lit [' ', 'o', 'r', 'a', 's']], [.lit ['i', 'n', ' '], .ref 1, .lit [' ', 'h', 'o', 'u', 'r']]),
    (.seqs [.lit ['s', 'a', ' '], .grp 1 (.number), .lit [' ', 't', 'a', 'o', 'n']], [.lit ['i', 'n', ' '], .ref 1, .lit [' ', 'y', 'e', 'a', 'r']]),
    (.seqs [.lit ['s', 'a', ' '], .grp 1 (.number), .lit [' ', 'm', 'i', 'n']], [.lit ['i', 'n', ' '], .ref 1, .lit [' ', 'm', 'i', 'n', 'u', 't', 'e']]),
    (.seqs [.lit ['s', 'a', ' '], .grp 1 (.number), .lit [' ', 's', 'e', 'g']], [.lit ['i', 'n', ' '], .ref 1, .lit [' ', 's', 'e', 'c', 'o', 'n', 'd']])],
  rxCombined := some (.seqs [.grp 1 (.alts [.bos, .cls true [.letter, .mark, .digit], .lit ['_']]), .grp 2 (.alts [.seqs [.number, .lit [' ', 's', 'e', 'g', 'u', 'n', 'd', 'o', ' ', 'a', 'n', 'g', ' ', 'n', 'a', 'k', 'a', 'l', 'i', 'p', 'a', 's']], .seqs [.number, .lit [' ', 'l', 'i', 'n', 'g', 'g', 'o', ' ', 'a', 'n', 'g', ' ', 'n', 'a', 'k', 'a', 'l', 'i', 'p', 'a', 's']], .seqs [.number, .lit [' ', 'm', 'i', 'n', 'u', 't', 'o', ' ', 'a', 'n', 'g', ' ', 'n', 'a', 'k', 'a', 'l', 'i', 'p', 'a', 's']], .seqs [.number, .lit [' ', 'b', 'u', 'w', 'a', 'n', ' ', 'a', 'n', 'g', ' ', 'n', 'a', 'k', 'a', 'l', 'i', 'p', 'a', 's']], .seqs [.number, .lit [' ', 'a', 'r', 'a', 'w', ' ', 'a', 'n', 'g', ' ', 'n', 'a', 'k', 'a', 'l', 'i', 'p', 'a', 's']], .seqs [.number, .lit [' ', 'o', 'r', 'a', 's', ' ', 'a', 'n', 'g', ' ', 'n', 'a', 'k', 'a', 'l', 'i', 'p', 'a', 's']], .seqs [.number, .lit [' ', 't', 'a', 'o', 'n', ' ', 'a', 'n', 'g', ' ', 'n', 'a', 'k', 'a', 'l', 'i', 'p', 'a', 's']], .seqs [.number, .lit [' ', 'm', 'i', 'n', ' ', 'a', 'n', 'g', ' ', 'n', 'a', 'k', 'a', 'l', 'i', 'p', 'a', 's']], .seqs [.number, .lit [' ', 's', 'e', 'g', ' ', 'a', 'n', 'g', ' ', 'n', 'a', 'k', 'a', 'l', 'i', 'p', 'a', 's']], .seqs [.number, .lit [' ', 'o', 'r', 'a', 's', ' ', 'n', 'a', 'k', 'a', 'l', 'i', 'p', 'a', 's']], .seqs [.number, .lit [' ', 's', 'e', 'g', ' ', 'n', 'a', 'k', 'a', 'l', 'i', 'p', 'a', 's']], .seqs [.lit ['s', 'a', ' '], .number, .lit [' ', 's', 'e', 'g', 'u', 'n', 'd', 'o']], .seqs [.lit ['s', 'a', ' '], .number, .lit [' ', 'l', 'i', 'n', 'g', 'g', 'o']], .seqs [.lit ['s', 'a', ' '], .number, .lit [' ', 'm', 'i', 'n', 'u', 't', 'o']], .seqs [.lit ['s', 'a', ' '], .number, .lit [' ', 'b', 'u', 'w', 'a', 'n']], .seqs [.lit ['s', 'a', ' '], .number, .lit [' ', 'a', 'r', 'a', 'w']], .seqs [.lit ['s', 'a', ' '], .number, .lit [' ', 'o', 'r', 'a', 's']], .seqs [.lit ['s', 'a', ' '], .number, .lit [' ', 't', 'a', 'o', 'n']], .seqs [.lit ['s', 'a', ' '], .number, .lit [' ', 'm', 'i', 'n']], .seqs [.lit ['s', 'a', ' '], .number, .lit [' ', 's', 'e', 'g']]]), .grp 3 (.alts [.eos, .cls true [.letter, .mark, .digit], .lit ['_']])], 3),
  rxExact := some (.seqs [.bos, .grp 1 (.alts [.seqs [.number, .lit [' ', 's', 'e', 'g', 'u', 'n', 'd', 'o', ' ', 'a', 'n', 'g', ' ', 'n', 'a', 'k', 'a', 'l', 'i', 'p', 'a', 's']], .seqs [.number, .lit [' ', 'l', 'i', 'n', 'g', 'g', 'o', ' ', 'a', 'n', 'g', ' ', 'n', 'a', 'k', 'a', 'l', 'i', 'p', 'a', 's']], .seqs [.number, .lit [' ', 'm', 'i', 'n', 'u', 't', 'o', ' ', 'a', 'n', 'g', ' ', 'n', 'a', 'k', 'a', 'l', 'i', 'p', 'a', 's']], .seqs [.number, .lit [' ', 'b', 'u', 'w', 'a', 'n', ' ', 'a', 'n', 'g', ' ', 'n', 'a', 'k', 'a', 'l', 'i', 'p', 'a', 's']], .seqs [.number, .lit [' ', 'a', 'r', 'a', 'w', ' ', 'a', 'n', 'g', ' ', 'n', 'a', 'k', 'a', 'l', 'i', 'p', 'a', 's']], .seqs [.number, .lit [' ', 'o', 'r', 'a', 's', ' ', 'a', 'n', 'g', ' ', 'n', 'a', 'k', 'a', 'l', 'i', 'p', 'a', 's']], .seqs [.number, .lit [' ', 't', 'a', 'o', 'n', ' ', 'a', 'n', 'g', ' ', 'n', 'a', 'k', 'a', 'l', 'i', 'p', 'a', 's']], .seqs [.number, .lit [' ', 'm', 'i', 'n', ' ', 'a', 'n', 'g', ' ', 'n', 'a', 'k', 'a', 'l', 'i', 'p', 'a', 's']], .seqs [.number, .lit [' ', 's', 'e', 'g', ' ', 'a', 'n', 'g', ' ', 'n', 'a', 'k', 'a', 'l', 'i', 'p', 'a', 's']], .seqs [.number, .lit [' ', 'o', 'r', 'a', 's', ' ', 'n', 'a', 'k', 'a', 'l', 'i', 'p', 'a', 's']], .seqs [.number, .lit [' ', 's', 'e', 'g', ' ', 'n', 'a', 'k', 'a', 'l', 'i', 'p', 'a', 's']], .seqs [.lit ['s', 'a', ' '], .number, .lit [' ', 's', 'e', 'g', 'u', 'n', 'd', 'o']], .seqs [.lit ['s', 'a', ' '], .number, .lit [' ', 'l', 'i', 'n', 'g', 'g', 'o']], .seqs [.lit ['s', 'a', ' '], .number, .lit [' ', 'm', 'i', 'n', 'u', 't', 'o']], .seqs [.lit ['s', 'a', ' '], .number, .lit [' ', 'b', 'u', 'w', 'a', 'n']], .seqs [.lit ['s', 'a', ' '], .number, .lit [' ', 'a', 'r', 'a', 'w']], .seqs [.lit ['s', 'a', ' '], .number, .lit [' ', 'o', 'r', 'a', 's']], .seqs [.lit ['s', 'a', ' '], .number, .lit [' ', 't', 'a', 'o', 'n']], .seqs [.lit ['s', 'a', ' '], .number, .lit [' ', 'm', 'i', 'n']], .seqs [.lit ['s', 'a', ' '], .number, .lit [' ', 's', 'e', 'g']]]), .eos]),
  knownWords :=
   [['n', 'a', 'k', 'a', 'l', 'i', 'p', 'a', 's', ' ', 'n', 'a', ' ', 'l', 'i', 'n', 'g', 'g', 'o'], ['s', 'u', 's', 'u', 'n', 'o', 'd', ' ', 'n', 'a', ' ', 'l', 'i', 'n', 'g', 'g', 'o'], ['n', 'a', 'k', 'a', 'r', 'a', 'a', 'n', 'g', ' ', 'l', 'i', 'n', 'g', 'g', 'o'], ['s', 'u', 's', 'u', 'n', 'o', 'd', ' ', 'n', 'a', ' ', 'b', 'u', 'w', 'a', 'n'], ['n', 'a', 'k', 'a', 'r', 'a', 'a', 'n', 'g', ' ', 'b', 'u', 'w', 'a', 'n'], ['s', 'a', ' ', 'l', 'i', 'n', 'g', 'g', 'o', 'n', 'g', ' ', 'i', 't', 'o'], ['s', 'a', ' ', 'm', 'i', 'n', 'u', 't', 'o', 'n', 'g', ' ', 'i', 't', 'o'], ['s', 'u', 's', 'u', 'n', 'o', 'd', ' ', 'n', 'a', ' ', 't', 'a', 'o', 'n'], ['n', 'a', 'k', 'a', 'r', 'a', 'a', 'n', 'g', ' ', 't', 'a', 'o', 'n'], ['n', 'g', 'a', 'y', 'o', 'n', 'g', ' ', 'l', 'i', 'n', 'g', 'g', 'o'], ['n', 'g', 'a', 'y', 'o', 'n', 'g', ' ', 'b', 'u', 'w', 'a', 'n'], ['n', 'g', 'a', 'y', 'o', 'n', 'g', ' ', 'a', 'r', 'a', 'w'], ['n', 'g', 'a', 'y', 'o', 'n', 'g', ' ', 'o', 'r', 'a', 's'], ['n', 'g', 'a', 'y', 'o', 'n', 'g', ' ', 't', 'a', 'o', 'n'], ['m', 'i', 'y', 'e', 'r', 'k', 'u', 'l', 'e', 's'], ['d', 'i', 's', 'y', 'e', 'm', 'b', 'r', 'e'], ['n', 'o', 'b', 'y', 'e', 'm', 'b', 'r', 'e'], ['s', 'e', 't', 'y', 'e', 'm', 'b', 'r', 'e'], ['b', 'i', 'y', 'e', 'r', 'n', 'e', 's'], ['h', 'u', 'w', 'e', 'b', 'e', 's'], ['k', 'a', 'h', 'a', 'p', 'o', 'n'], ['o', 'k', 't', 'u', 'b', 'r', 'e'], ['p', 'e', 'b', 'r', 'e', 'r', 'o'], ['s', 'e', 'g', 'u', 'n', 'd', 'o'], ['a', 'g', 'o', 's', 't', 'o'], ['l', 'i', 'n', 'g', 'g', 'o'], ['m', 'a', 'r', 't', 'e', 's'], ['m', 'i', 'n', 'u', 't', 'o'], ['n', 'g', 'a', 'y', 'o', 'n'], ['s', 'a', 'b', 'a', 'd', 'o'], ['a', 'b', 'r', 'i', 'l'], ['b', 'u', 'k', 'a', 's'], ['b', 'u', 'w', 'a', 'n'], ['e', 'n', 'e', 'r', 'o'], ['h', 'u', 'l', 'y', 'o'], ['h', 'u', 'n', 'y', 'o'], ['l', 'u', 'n', 'e', 's'], ['m', 'a', 'r', 's', 'o'], ['a', 'r', 'a', 'w'], ['m', 'a', 'y', 'o'], ['o', 'r', 'a', 's'], ['t', 'a', 'o', 'n'], ['a', 'b', 'r'], ['a', 'g', 'o'], ['b', 'i', 'y'], ['d', 'i', 's'], ['e', 'n', 'e'], ['g', 'm', 't'], ['h', 'u', 'l'], ['h', 'u', 'n'], ['h', 'u', 'w'], ['l', 'i', 'n'], ['l', 'u', 'n'], ['m', 'a', 'r'], ['m', 'a', 'y'], ['m', 'i', 'n'], ['m', 'i', 'y'], ['n', 'o', 'b'], ['o', 'k', 't'], ['p', 'e', 'b'], ['s', 'a', 'b'], ['s', 'e', 'g'], ['s', 'e', 't'], ['u', 't', 'c'], ['a', 'm'], ['p', 'm'], [' '], ['\''], ['+'], [','], ['-'], ['.'], ['/'], [':'], [';'], ['@'], ['['], [']'], ['z'], ['|']] }

/-- internal/data/fo.go: `fo_Locale`. -/
def foLang : LangData := { foDict with
  relativeRegexes :=
   [(.seqs [.grp 1 (.number), .lit [' ', 'm', 'i', 'n', 'u', 't', 't', 'i', 'r', ' ', 's', 'i'], .cls false [.rng 'Ð' 'Ð', .rng 'ð' 'ð'], .lit ['a', 'n']], [.ref 1, .lit [' ', 'm', 'i', 'n', 'u', 't', 'e', ' ', 'a', 'g', 'o']]),
    (.seqs [.grp 1 (.number), .lit [' ', 'm', 'a', 'n', 'a'], .cls false [.rng 'Ð' 'Ð', .rng 'ð' 'ð'], .lit ['i', 'r', ' ', 's', 'i'], .cls false [.rng 'Ð' 'Ð', .rng 'ð' 'ð'], .lit ['a', 'n']], [.ref 1, .lit [' ', 'm', 'o', 'n', 't', 'h', ' ', 'a', 'g', 'o']]),
    (.seqs [.grp 1 (.number), .lit [' ', 'm', 'i', 'n', 'u', 't', 't', ' ', 's', 'i'], .cls false [.rng 'Ð' 'Ð', .rng 'ð' 'ð'], .lit ['a', 'n']], [.ref 1, .lit [' ', 'm', 'i', 'n', 'u', 't', 'e', ' ', 'a', 'g', 'o']]),
    (.seqs [.grp 1 (.number), .lit [' ', 's', 'e', 'k', 'u', 'n', 'd', ' ', 's', 'i'], .cls false [.rng 'Ð' 'Ð', .rng 'ð' 'ð'], .lit ['a', 'n']], [.ref 1, .lit [' ', 's', 'e', 'c', 'o', 'n', 'd', ' ', 'a', 'g', 'o']]),
    (.seqs [.grp 1 (.number), .lit [' ', 'd', 'a', 'g', 'a', 'r', ' ', 's', 'i'], .cls false [.rng 'Ð' 'Ð', .rng 'ð' 'ð'], .lit ['a', 'n']], [.ref 1, .lit [' ', 'd', 'a', 'y', ' ', 'a', 'g', 'o']]),
    (.seqs [.grp 1 (.number), .lit [' ', 'd', 'a', 'g', 'u', 'r', ' ', 's', 'i'], .cls false [.rng 'Ð' 'Ð', .rng 'ð' 'ð'], .lit ['a', 'n']], [.ref 1, .lit [' ', 'd', 'a', 'y', ' ', 'a', 'g', 'o']]),
    (.seqs [.grp 1 (.number), .lit [' ', 'm', 'a', 'n', 'a'], .cls false [.rng 'Ð' 'Ð', .rng 'ð' 'ð'], .lit [' ', 's', 'i'], .cls false [.rng 'Ð' 'Ð', .rng 'ð' 'ð'], .lit ['a', 'n']], [.ref 1, .lit [' ', 'm', 'o', 'n', 't', 'h', ' ', 'a', 'g', 'o']]),
    (.seqs [.grp 1 (.number), .lit [' ', 't', 'i', 'm', 'a', 'r', ' ', 's', 'i'], .cls false [.rng 'Ð' 'Ð', .rng 'ð' 'ð'], .lit ['a', 'n']], [.ref 1, .lit [' ', 'h', 'o', 'u', 'r', ' ', 'a', 'g', 'o']]),
    (.seqs [.grp 1 (.number), .lit [' ', 'v', 'i', 'k', 'u', 'r', ' ', 's', 'i'], .cls false [.rng 'Ð' 'Ð', .rng 'ð' 'ð'], .lit ['a', 'n']], [.ref 1, .lit [' ', 'w', 'e', 'e', 'k', ' ', 'a', 'g', 'o']]),
    (.seqs [.lit ['u', 'm', ' '], .grp 1 (.number), .lit [' ', 'm', 'i', 'n', 'u', 't', 't', 'i', 'r']], [.lit ['i', 'n', ' '], .ref 1, .lit [' ', 'm', 'i', 'n', 'u', 't', 'e']]),
    (.seqs [.grp 1 (.number), .lit [' ', 't', 'i', 'm', 'i', ' ', 's', 'i'], .cls false [.rng 'Ð' 'Ð', .rng 'ð' 'ð'], .lit ['a', 'n']], [.ref 1, .lit [' ', 'h', 'o', 'u', 'r', ' ', 'a', 'g', 'o']]),
    (.seqs [.grp 1 (.number), .lit [' ', 'v', 'i', 'k', 'a', ' ', 's', 'i'], .cls false [.rng 'Ð' 'Ð', .rng 'ð' 'ð'], .lit ['a', 'n']], [.ref 1, .lit [' ', 'w', 'e', 'e', 'k', ' ', 'a', 'g', 'o']]),
    (.seqs [.lit ['u', 'm', ' '], .grp 1 (.number), .lit [' ', 'm', 'a', 'n', 'a'], .cls false [.rng 'Ð' 'Ð', .rng 'ð' 'ð'], .lit ['i', 'r']], [.lit ['i', 'n', ' '], .ref 1, .lit [' ', 'm', 'o', 'n', 't', 'h']]),
    (.seqs [.grp 1 (.number), .lit [' ', 'm', 'i', 'n', ' ', 's', 'i'], .cls false [.rng 'Ð' 'Ð', .rng 'ð' 'ð'], .lit ['a', 'n']], [.ref 1, .lit [' ', 'm', 'i', 'n', 'u', 't', 'e', ' ', 'a', 'g', 'o']]),
    (.seqs [.grp 1 (.number), .lit [' ', 'm', 'n'], .cls false [.rng 'Ð' 'Ð', .rng 'ð' 'ð'], .lit [' ', 's', 'i'], .cls false [.rng 'Ð' 'Ð', .rng 'ð' 'ð'], .lit ['a', 'n']], [.ref 1, .lit [' ', 'm', 'o', 'n', 't', 'h', ' ', 'a', 'g', 'o']]),
    (.seqs [.grp 1 (.number), .lit [' ', 's', 'e', 'k', ' ', 's', 'i'], .cls false [.rng 'Ð' 'Ð', .rng 'ð' 'ð'], .lit ['a', 'n']], [.ref 1, .lit [' ', 's', 'e', 'c', 'o', 'n', 'd', ' ', 'a', 'g', 'o']]),
    (.seqs [.lit ['u', 'm', ' '], .grp 1 (.number), .lit [' ', 'm', 'i', 'n', 'u', 't', 't']], [.lit ['i', 'n', ' '], .ref 1, .lit [' ', 'm', 'i', 'n', 'u', 't', 'e']]),
    (.seqs [.lit ['u', 'm', ' '], .grp 1 (.number), .lit [' ', 's', 'e', 'k', 'u', 'n', 'd']], [.lit ['i', 'n', ' '], .ref 1, .lit [' ', 's', 'e', 'c', 'o', 'n', 'd']]),
    (.seqs [.grp 1 (.number), .lit [' ', 'a', 'r', ' ', 's', 'i'], .cls false [.rng 'Ð' 'Ð', .rng 'ð' 'ð'], .lit ['a', 'n']], [.ref 1, .lit [' ', 'y', 'e', 'a', 'r', ' ', 'a', 'g', 'o']]),
    (.seqs [.grp 1 (.number), .lit [' ', 'd', 'a', ' ', 's', 'i'], .cls false [.rng 'Ð' 'Ð', .rng 'ð' 'ð'], .lit ['a', 'n']], [.ref 1, .lit [' ', 'd', 'a', 'y', ' ', 'a', 'g', 'o']]),
    (.seqs [.grp 1 (.number), .lit [' ', 'v', 'i', ' ', 's', 'i'], .cls false [.rng 'Ð' 'Ð', .rng 'ð' 'ð'], .lit ['a', 'n']], [.ref 1, .lit [' ', 'w', 'e', 'e', 'k', ' ', 'a', 'g', 'o']]),
    (.seqs [.lit ['u', 'm', ' '], .grp 1 (.number), .lit [' ', 'd', 'a', 'g', 'a', 'r']], [.lit ['i', 'n', ' '], .ref 1, .lit [' ', 'd', 'a', 'y']]),
    (.seqs [.lit ['u', 'm', ' '], .grp 1 (.number), .lit [' ', 'm', 'a', 'n', 'a'], .cls false [.rng 'Ð' 'Ð', .rng 'ð' 'ð']], [.lit ['i', 'n', ' '], .ref 1, .lit [' ', 'm', 'o', 'n', 't', 'h']]),
    (.seqs [.lit ['u', 'm', ' '], .grp 1 (.number), .lit [' ', 't', 'i', 'm', 'a', 'r']], [.lit ['i', 'n', ' '], .ref 1, .lit [' ', 'h', 'o', 'u', 'r']]),
    (.seqs [.lit ['u', 'm', ' '], .grp 1 (.number), .lit [' ', 'v', 'i', 'k', 'u', 'r']], [.lit ['i', 'n', ' '], .ref 1, .lit [' ', 'w', 'e', 'e', 'k']]),
    (.seqs [.grp 1 (.number), .lit [' ', 'd', ' ', 's', 'i'], .cls false [.rng 'Ð' 'Ð', .rng 'ð' 'ð'], .lit ['a', 'n']], [.ref 1, .lit [' ', 'd', 'a', 'y', ' ', 'a', 'g', 'o']]),
    (.seqs [.grp 1 (.number), .lit [' ', 'm', ' ', 's', 'i'], .cls false [.rng 'Ð' 'Ð', .rng 'ð' 'ð'], .lit ['a', 'n']], [.ref 1, .lit [' ', 'm', 'i', 'n', 'u', 't', 'e', ' ', 'a', 'g', 'o']]),
    (.seqs [.grp 1 (.number), .lit [' ', 's', ' ', 's', 'i'], .cls false [.rng 'Ð' 'Ð', .rng 'ð' 'ð'], .lit ['a', 'n']], [.ref 1, .lit [' ', 's', 'e', 'c', 'o', 'n', 'd', ' ', 'a', 'g', 'o']]),
    (.seqs [.grp 1 (.number), .lit [' ', 't', ' ', 's', 'i'], .cls false [.rng 'Ð' 'Ð', .rng 'ð' 'ð'], .lit ['a', 'n']], [.ref 1, .lit [' ', 'h', 'o', 'u', 'r', ' ', 'a', 'g', 'o']]),
    (.seqs [.grp 1 (.number), .lit [' ', 'v', ' ', 's', 'i'], .cls false [.rng 'Ð' 'Ð', .rng 'ð' 'ð'], .lit ['a', 'n']], [.ref 1, .lit [' ', 'w', 'e', 'e', 'k', ' ', 'a', 'g', 'o']]),
    (.seqs [.lit ['u', 'm', ' '], .grp 1 (.number), .lit [' ', 't', 'i', 'm', 'a']], [.lit ['i', 'n', ' '], .ref 1, .lit [' ', 'h', 'o', 'u', 'r']]),
    (.seqs [.lit ['u', 'm', ' '], .grp 1 (.number), .lit [' ', 'v', 'i', 'k', 'u']], [.lit ['i', 'n', ' '], .ref 1, .lit [' ', 'w', 'e', 'e', 'k']]),
    (.seqs [.lit ['u', 'm', ' '], .grp 1 (.number), .lit [' ', 'd', 'a', 'g']], [.lit ['i', 'n', ' '], .ref 1, .lit [' ', 'd', 'a', 'y']]),
    (.seqs [.lit ['u', 'm', ' '], .grp 1 (.number), .lit [' ', 'm', 'i', 'n']], [.lit ['i', 'n', ' '], .ref 1, .lit [' ', 'm', 'i', 'n', 'u', 't', 'e']]),
    (.seqs [.lit ['u', 'm', ' '], .grp 1 (.number), .lit [' ', 'm', 'n'], .cls false [.rng 'Ð' 'Ð', .rng 'ð' 'ð']], [.lit ['i', 'n', ' '], .ref 1, .lit [' ', 'm', 'o', 'n', 't', 'h']]),
    (.seqs [.lit ['u', 'm', ' '], .grp 1 (.number), .lit [' ', 's', 'e', 'k']], [.lit ['i', 'n', ' '], .ref 1, .lit [' ', 's', 'e', 'c', 'o', 'n', 'd']]),
    (.seqs [.lit ['u', 'm', ' '], .grp 1 (.number), .lit [' ', 'a', 'r']], [.lit ['i', 'n', ' '], .ref 1, .lit [' ', 'y', 'e', 'a', 'r']]),
    (.seqs [.lit ['u', 'm', ' '], .grp 1 (.number), .lit [' ', 'd', 'a']], [.lit ['i', 'n', ' '], .ref 1, .lit [' ', 'd', 'a', 'y']]),
    (.seqs [.lit ['u', 'm', ' '], .grp 1 (.number), .lit [' ', 'v', 'i']], [.lit ['i', 'n', ' '], .ref 1, .lit [' ', 'w', 'e', 'e', 'k']]),
    (.seqs [.lit ['u', 'm', ' '], .grp 1 (.number), .lit [' ', 'd']], [.lit ['i', 'n', ' '], .ref 1, .lit [' ', 'd', 'a', 'y']]),
    (.seqs [.lit ['u', 'm', ' '], .grp 1 (.number), .lit [' ', 'm']], [.lit ['i', 'n', ' '], .ref 1, .lit [' ', 'm', 'i', 'n', 'u', 't', 'e']]),
    (.seqs [.lit ['u', 'm', ' '], .grp 1 (.number), .lit [' ', 's']], [.lit ['i', 'n', ' '], .ref 1, .lit [' ', 's', 'e', 'c', 'o', 'n', 'd']]),
    (.seqs [.lit ['u', 'm', ' '], .grp 1 (.number), .lit [' ', 't']], [.lit ['i', 'n', ' '], .ref 1, .lit [' ', 'h', 'o', 'u', 'r']]),
    (.seqs [.lit ['u', 'm', ' '], .grp 1 (.number), .lit [' ', 'v']], [.lit ['i', 'n', ' '], .ref 1, .lit [' ', 'w', 'e', 'e', 'k']])],
  rxCombined := some (.seqs [.grp 1 (.alts [.bos, .cls true [.letter, .mark, .digit], .lit ['_']]), .grp 2 (.alts [.seqs [.number, .lit [' ', 'm', 'i', 'n', 'u', 't', 't', 'i', 'r', ' ', 's', 'i'], .cls false [.rng 'Ð' 'Ð', .rng 'ð' 'ð'], .lit ['a', 'n']], .seqs [.number, .lit [' ', 'm', 'a', 'n', 'a'], .cls false [.rng 'Ð' 'Ð', .rng 'ð' 'ð'], .lit ['i', 'r', ' ', 's', 'i'], .cls false [.rng 'Ð' 'Ð', .rng 'ð' 'ð'], .lit ['a', 'n']], .seqs [.number, .lit [' ', 'm', 'i', 'n', 'u', 't', 't', ' ', 's', 'i'], .cls false [.rng 'Ð' 'Ð', .rng 'ð' 'ð'], .lit ['a', 'n']], .seqs [.number, .lit [' ', 's', 'e', 'k', 'u', 'n', 'd', ' ', 's', 'i'], .cls false [.rng 'Ð' 'Ð', .rng 'ð' 'ð'], .lit ['a', 'n']], .seqs [.number, .lit [' ', 'd', 'a', 'g', 'a', 'r', ' ', 's', 'i'], .cls false [.rng 'Ð' 'Ð', .rng 'ð' 'ð'], .lit ['a', 'n']], .seqs [.number, .lit [' ', 'd', 'a', 'g', 'u', 'r', ' ', 's', 'i'], .cls false [.rng 'Ð' 'Ð', .rng 'ð' 'ð'], .lit ['a', 'n']], .seqs [.number, .lit [' ', 'm', 'a', 'n', 'a'], .cls false [.rng 'Ð' 'Ð', .rng 'ð' 'ð'], .lit [' ', 's', 'i'], .cls false [.rng 'Ð' 'Ð', .rng 'ð' 'ð'], .lit ['a', 'n']], .seqs [.number, .lit [' ', 't', 'i', 'm', 'a', 'r', ' ', 's', 'i'], .cls false [.rng 'Ð' 'Ð', .rng 'ð' 'ð'], .lit ['a', 'n']], .seqs [.number, .lit [' ', 'v', 'i', 'k', 'u', 'r', ' ', 's', 'i'], .cls false [.rng 'Ð' 'Ð', .rng 'ð' 'ð'], .lit ['a', 'n']], .seqs [.lit ['u', 'm', ' '], .number, .lit [' ', 'm', 'i', 'n', 'u', 't', 't', 'i', 'r']], .seqs [.number, .lit [' ', 't', 'i', 'm', 'i', ' ', 's', 'i'], .cls false [.rng 'Ð' 'Ð', .rng 'ð' 'ð'], .lit ['a', 'n']], .seqs [.number, .lit [' ', 'v', 'i', 'k', 'a', ' ', 's', 'i'], .cls false [.rng 'Ð' 'Ð', .rng 'ð' 'ð'], .lit ['a', 'n']], .seqs [.lit ['u', 'm', ' '], .number, .lit [' ', 'm', 'a', 'n', 'a'], .cls false [.rng 'Ð' 'Ð', .rng 'ð' 'ð'], .lit ['i', 'r']], .seqs [.number, .lit [' ', 'm', 'i', 'n', ' ', 's', 'i'], .cls false [.rng 'Ð' 'Ð', .rng 'ð' 'ð'], .lit ['a', 'n']], .seqs [.number, .lit [' ', 'm', 'n'], .cls false [.rng 'Ð' 'Ð', .rng 'ð' 'ð'], .lit [' ', 's', 'i'], .cls false [.rng 'Ð' 'Ð', .rng 'ð' 'ð'], .lit ['a', 'n']], .seqs [.number, .lit [' ', 's', 'e', 'k', ' ', 's', 'i'], .cls false [.rng 'Ð' 'Ð', .rng 'ð' 'ð'], .lit ['a', 'n']], .seqs [.lit ['u', 'm', ' '], .number, .lit [' ', 'm', 'i', 'n', 'u', 't', 't']], .seqs [.lit ['u', 'm', ' '], .number, .lit [' ', 's', 'e', 'k', 'u', 'n', 'd']], .seqs [.number, .lit [' ', 'a', 'r', ' ', 's', 'i'], .cls false [.rng 'Ð' 'Ð', .rng 'ð' 'ð'], .lit ['a', 'n']], .seqs [.number, .lit [' ', 'd', 'a', ' ', 's', 'i'], .cls false [.rng 'Ð' 'Ð', .rng 'ð' 'ð'], .lit ['a', 'n']], .seqs [.number, .lit [' ', 'v', 'i', ' ', 's', 'i'], .cls false [.rng 'Ð' 'Ð', .rng 'ð' 'ð'], .lit ['a', 'n']], .seqs [.lit ['u', 'm', ' '], .number, .lit [' ', 'd', 'a', 'g', 'a', 'r']], .seqs [.lit ['u', 'm', ' '], .number, .lit [' ', 'm', 'a', 'n', 'a'], .cls false [.rng 'Ð' 'Ð', .rng 'ð' 'ð']], .seqs [.lit ['u', 'm', ' '], .number, .lit [' ', 't', 'i', 'm', 'a', 'r']], .seqs [.lit ['u', 'm', ' '], .number, .lit [' ', 'v', 'i', 'k', 'u', 'r']], .seqs [.number, .lit [' ', 'd', ' ', 's', 'i'], .cls false [.rng 'Ð' 'Ð', .rng 'ð' 'ð'], .lit ['a', 'n']], .seqs [.number, .lit [' ', 'm', ' ', 's', 'i'], .cls false [.rng 'Ð' 'Ð', .rng 'ð' 'ð'], .lit ['a', 'n']], .seqs [.number, .lit [' ', 's', ' ', 's', 'i'], .cls false [.rng 'Ð' 'Ð', .rng 'ð' 'ð'], .lit ['a', 'n']], .seqs [.number, .lit [' ', 't', ' ', 's', 'i'], .cls false [.rng 'Ð' 'Ð', .rng 'ð' 'ð'], .lit ['a', 'n']], .seqs [.number, .lit [' ', 'v', ' ', 's', 'i'], .cls false [.rng 'Ð' 'Ð', .rng 'ð' 'ð'], .lit ['a', 'n']], .seqs [.lit ['u', 'm', ' '], .number, .lit [' ', 't', 'i', 'm', 'a']], .seqs [.lit ['u', 'm', ' '], .number, .lit [' ', 'v', 'i', 'k', 'u']], .seqs [.lit ['u', 'm', ' '], .number, .lit [' ', 'd', 'a', 'g']], .seqs [.lit ['u', 'm', ' '], .number, .lit [' ', 'm', 'i', 'n']], .seqs [.lit ['u', 'm', ' '], .number, .lit [' ', 'm', 'n'], .cls false [.rng 'Ð' 'Ð', .rng 'ð' 'ð']], .seqs [.lit ['u', 'm', ' '], .number, .lit [' ', 's', 'e', 'k']], .seqs [.lit ['u', 'm', ' '], .number, .lit [' ', 'a', 'r']], .seqs [.lit ['u', 'm', ' '], .number, .lit [' ', 'd', 'a']], .seqs [.lit ['u', 'm', ' '], .number, .lit [' ', 'v', 'i']], .seqs [.lit ['u', 'm', ' '], .number, .lit [' ', 'd']], .seqs [.lit ['u', 'm', ' '], .number, .lit [' ', 'm']], .seqs [.lit ['u', 'm', ' '], .number, .lit [' ', 's']], .seqs [.lit ['u', 'm', ' '], .number, .lit [' ', 't']], .seqs [.lit ['u', 'm', ' '], .number, .lit [' ', 'v']]]), .grp 3 (.alts [.eos, .cls true [.letter, .mark, .digit], .lit ['_']])], 3),
  rxExact := some (.seqs [.bos, .grp 1 (.alts [.seqs [.number, .lit [' ', 'm', 'i', 'n', 'u', 't', 't', 'i', 'r', ' ', 's', 'i'], .cls false [.rng 'Ð' 'Ð', .rng 'ð' 'ð'], .lit ['a', 'n']], .seqs [.number, .lit [' ', 'm', 'a', 'n', 'a'], .cls false [.rng 'Ð' 'Ð', .rng 'ð' 'ð'], .lit ['i', 'r', ' ', 's', 'i'], .cls false [.rng 'Ð' 'Ð', .rng 'ð' 'ð'], .lit ['a', 'n']], .seqs [.number, .lit [' ', 'm', 'i', 'n', 'u', 't', 't', ' ', 's', 'i'], .cls false [.rng 'Ð' 'Ð', .rng 'ð' 'ð'], .lit ['a', 'n']], .seqs [.number, .lit [' ', 's', 'e', 'k', 'u', 'n', 'd', ' ', 's', 'i'], .cls false [.rng 'Ð' 'Ð', .rng 'ð' 'ð'], .lit ['a', 'n']], .seqs [.number, .lit [' ', 'd', 'a', 'g', 'a', 'r', ' ', 's', 'i'], .cls false [.rng 'Ð' 'Ð', .rng 'ð' 'ð'], .lit ['a', 'n']], .seqs [.number, .lit [' ', 'd', 'a', 'g', 'u', 'r', ' ', 's', 'i'], .cls false [.rng 'Ð' 'Ð', .rng 'ð' 'ð'], .lit ['a', 'n']], .seqs [.number, .lit [' ', 'm', 'a', 'n', 'a'], .cls false [.rng 'Ð' 'Ð', .rng 'ð' 'ð'], .lit [' ', 's', 'i'], .cls false [.rng 'Ð' 'Ð', .rng 'ð' 'ð'], .lit ['a', 'n']], .seqs [.number, .lit [' ', 't', 'i', 'm', 'a', 'r', ' ', 's', 'i'], .cls false [.rng 'Ð' 'Ð', .rng 'ð' 'ð'], .lit ['a', 'n']], .seqs [.number, .lit [' ', 'v', 'i', 'k', 'u', 'r', ' ', 's', 'i'], .cls false [.rng 'Ð' 'Ð', .rng 'ð' 'ð'], .lit ['a', 'n']], .seqs [.lit ['u', 'm', ' '], .number, .lit [' ', 'm', 'i', 'n', 'u', 't', 't', 'i', 'r']], .seqs [.number, .lit [' ', 't', 'i', 'm', 'i', ' ', 's', 'i'], .cls false [.rng 'Ð' 'Ð', .rng 'ð' 'ð'], .lit ['a', 'n']], .seqs [.number, .lit [' ', 'v', 'i', 'k', 'a', ' ', 's', 'i'], .cls false [.rng 'Ð' 'Ð', .rng 'ð' 'ð'], .lit ['a', 'n']], .seqs [.lit ['u', 'm', ' '], .number, .lit [' ', 'm', 'a', 'n', 'a'], .cls false [.rng 'Ð' 'Ð', .rng 'ð' 'ð'], .lit ['i', 'r']], .seqs [.number, .lit [' ', 'm', 'i', 'n', ' ', 's', 'i'], .cls false [.rng 'Ð' 'Ð', .rng 'ð' 'ð'], .lit ['a', 'n']], .seqs [.number, .lit [' ', 'm', 'n'], .cls false [.rng 'Ð' 'Ð', .rng 'ð' 'ð'], .lit [' ', 's', 'i'], .cls false [.rng 'Ð' 'Ð', .rng 'ð' 'ð'], .lit ['a', 'n']], .seqs [.number, .lit [' ', 's', 'e', 'k', ' ', 's', 'i'], .cls false [.rng 'Ð' 'Ð', .rng 'ð' 'ð'], .lit ['a', 'n']], .seqs [.lit ['u', 'm', ' '], .number, .lit [' ', 'm', 'i', 'n', 'u', 't', 't']], .seqs [.lit ['u', 'm', ' '], .number, .lit [' ', 's', 'e', 'k', 'u', 'n', 'd']], .seqs [.number, .lit [' ', 'a', 'r', ' ', 's', 'i'], .cls false [.rng 'Ð' 'Ð', .rng 'ð' 'ð'], .lit ['a', 'n']], .seqs [.number, .lit [' ', 'd', 'a', ' ', 's', 'i'], .cls false [.rng 'Ð' 'Ð', .rng 'ð' 'ð'], .lit ['a', 'n']], .seqs [.number, .lit [' ', 'v', 'i', ' ', 's', 'i'], .cls false [.rng 'Ð' 'Ð', .rng 'ð' 'ð'], .lit ['a', 'n']], .seqs [.lit ['u', 'm', ' '], .number, .lit [' ', 'd', 'a', 'g', 'a', 'r']], .seqs [.lit ['u', 'm', ' '], .number, .lit [' ', 'm', 'a', 'n', 'a'], .cls false [.rng 'Ð' 'Ð', .rng 'ð' 'ð']], .seqs [.lit ['u', 'm', ' '], .number, .lit [' ', 't', 'i', 'm', 'a', 'r']], .seqs [.lit ['u', 'm', ' '], .number, .lit [' ', 'v', 'i', 'k', 'u', 'r']], .seqs [.number, .lit [' ', 'd', ' ', 's', 'i'], .cls false [.rng 'Ð' 'Ð', .rng 'ð' 'ð'], .lit ['a', 'n']], .seqs [.number, .lit [' ', 'm', ' ', 's', 'i'], .cls false [.rng 'Ð' 'Ð', .rng 'ð' 'ð'], .lit ['a', 'n']], .seqs [.number, .lit [' ', 's', ' ', 's', 'i'], .cls false [.rng 'Ð' 'Ð', .rng 'ð' 'ð'], .lit ['a', 'n']], .seqs [.number, .lit [' ', 't', ' ', 's', 'i'], .cls false [.rng 'Ð' 'Ð', .rng 'ð' 'ð'], .lit ['a', 'n']], .seqs [.number, .lit [' ', 'v', ' ', 's', 'i'], .cls false [.rng 'Ð' 'Ð', .rng 'ð' 'ð'], .lit ['a', 'n']], .seqs [.lit ['u', 'm', ' '], .number, .lit [' ', 't', 'i', 'm', 'a']], .seqs [.lit ['u', 'm', ' '], .number, .lit [' ', 'v', 'i', 'k', 'u']], .seqs [.lit ['u', 'm', ' '], .number, .lit [' ', 'd', 'a', 'g']], .seqs [.lit ['u', 'm', ' '], .number, .lit [' ', 'm', 'i', 'n']], .seqs [.lit ['u', 'm', ' '], .number, .lit [' ', 'm', 'n'], .cls false [.rng 'Ð' 'Ð', .rng 'ð' 'ð']], .seqs [.lit ['u', 'm', ' '], .number, .lit [' ', 's', 'e', 'k']], .seqs [.lit ['u', 'm', ' '], .number, .lit [' ', 'a', 'r']], .seqs [.lit ['u', 'm', ' '], .number, .lit [' ', 'd', 'a']], .seqs [.lit ['u', 'm', ' '], .number, .lit [' ', 'v', 'i']], .seqs [.lit ['u', 'm', ' '], .number, .lit [' ', 'd']], .seqs [.lit ['u', 'm', ' '], .number, .lit [' ', 'm']], .seqs [.lit ['u', 'm', ' '], .number, .lit [' ', 's']], .seqs [.lit ['u', 'm', ' '], .number, .lit [' ', 't']], .seqs [.lit ['u', 'm', ' '], .number, .lit [' ', 'v']]]), .eos]),
  knownWords :=
   [['h', 'e', 'n', 'd', 'a', 'n', ' ', 'm', 'i', 'n', 'u', 't', 't', 'i', 'n'], ['s', 'e', 'i', 'n', 'a', 's', 't', 'a', ' ', 'm', 'a', 'n', 'a', 'ð'], ['h', 'e', 'n', 'd', 'a', ' ', 'm', 'a', 'n', 'a', 'ð', 'i', 'n'], ['s', 'e', 'i', 'n', 'a', 's', 't', 'u', ' ', 'v', 'i', 'k', 'u'], ['f', 'r', 'i', 'g', 'g', 'j', 'a', 'd', 'a', 'g', 'u', 'r'], ['h', 'e', 'n', 'd', 'a', 'n', ' ', 't', 'i', 'm', 'a', 'n'], ['l', 'e', 'y', 'g', 'a', 'r', 'd', 'a', 'g', 'u', 'r'], ['n', 'æ', 's', 't', 'a', ' ', 'm', 'a', 'n', 'a', 'ð'], ['n', 'æ', 's', 't', 'u', ' ', 'v', 'i', 'k', 'u'], ['s', 'u', 'n', 'n', 'u', 'd', 'a', 'g', 'u', 'r'], ['h', 'e', 's', 'u', ' ', 'v', 'i', 'k', 'u'], ['m', 'a', 'n', 'a', 'd', 'a', 'g', 'u', 'r'], ['m', 'i', 'k', 'u', 'd', 'a', 'g', 'u', 'r'], ['s', 'e', 'p', 't', 'e', 'm', 'b', 'e', 'r'], ['d', 'e', 's', 'e', 'm', 'b', 'e', 'r'], ['h', 'o', 's', 'd', 'a', 'g', 'u', 'r'], ['i', ' ', 'm', 'o', 'r', 'g', 'i', 'n'], ['m', 'i', 'n', 'u', 't', 't', 'u', 'r'], ['n', 'o', 'v', 'e', 'm', 'b', 'e', 'r'], ['n', 'æ', 's', 't', 'a', ' ', 'a', 'r'], ['t', 'y', 's', 'd', 'a', 'g', 'u', 'r'], ['f', 'e', 'b', 'r', 'u', 'a', 'r'], ['m', 'a', 'n', 'a', 'ð', 'u', 'r'], ['o', 'k', 't', 'o', 'b', 'e', 'r'], ['a', 'u', 'g', 'u', 's', 't'], ['i', ' ', 'f', 'j', 'ø', 'r'], ['i', ' ', 'g', 'j', 'a', 'r'], ['j', 'a', 'n', 'u', 'a', 'r'], ['s', 'e', 'k', 'u', 'n', 'd'], ['a', 'p', 'r', 'i', 'l'], ['d', 'a', 'g', 'u', 'r'], ['i', ' ', 'd', 'a', 'g'], ['i', ' ', 'a', 'r'], ['j', 'u', 'l', 'i'], ['j', 'u', 'n', 'i'], ['m', 'a', 'r', 's'], ['t', 'i', 'm', 'i'], ['v', 'i', 'k', 'a'], ['a', 'p', 'r'], ['a', 'u', 'g'], ['d', 'e', 's'], ['f', 'e', 'b'], ['f', 'r', 'i'], ['g', 'm', 't'], ['h', 'o', 's'], ['j', 'a', 'n'], ['j', 'u', 'l'], ['j', 'u', 'n'], ['l', 'e', 'y'], ['m', 'a', 'i'], ['m', 'a', 'n'], ['m', 'a', 'r'], ['m', 'i', 'k'], ['m', 'i', 'n'], ['m', 'n', 'ð'], ['n', 'o', 'v'], ['o', 'k', 't'], ['s', 'e', 'k'], ['s', 'e', 'p'], ['s', 'u', 'n'], ['t', 'y', 's'], ['u', 't', 'c'], ['a', 'm'], ['a', 'r'], ['d', 'a'], ['n', 'u'], ['p', 'm'], ['v', 'i'], [' '], ['\''], ['+'], [','], ['-'], ['.'], ['/'], [':'], [';'], ['@'], ['['], [']'], ['d'], ['m'], ['s'], ['t'], ['v'], ['z'], ['|']] }

/-- internal/data/fo.go: `fo_DK_Locale`. -/
def fo_DKLang : LangData := fo_DKDict

/-- internal/data/fr.go: `fr_Locale`. -/
def frLang : LangData := { frDict with
  simplifications :=
   [(.seqs [.grp 1 (.alts [.bos, .noWord]), .lit ['d', '\'', 'u', 'n', 'e'], .grp 2 (.alts [.eos, .noWord])], [.ref 1, .lit ['1'], .ref 2]),
    (.seqs [.grp 1 (.alts [.bos, .noWord]), .lit ['d', '\'', 'u', 'n'], .grp 2 (.alts [.eos, .noWord])], [.ref 1, .lit ['1'], .ref 2]),
    (.seqs [.grp 1 (.alts [.bos, .noWord]), .lit ['u', 'n', 'e'], .grp 2 (.alts [.eos, .noWord])], [.ref 1, .lit ['1'], .ref 2]),
    (.seqs [.grp 1 (.alts [.bos, .noWord]), .lit ['u', 'n'], .grp 2 (.alts [.eos, .noWord])], [.ref 1, .lit ['1'], .ref 2]),
    (.seqs [.grp 1 (.alts [.bos, .noWord]), .grp 2 (.number), .plus (.cls false [.space]), .lit ['h'], .plus (.cls false [.space]), .grp 3 (.number), .plus (.cls false [.space]), .lit ['m', 'i', 'n'], .grp 4 (.alts [.eos, .noWord])], [.ref 1, .ref 2, .lit ['h'], .ref 3, .lit ['m'], .ref 4]),
    (.seqs [.grp 1 (.alts [.bos, .noWord]), .grp 2 (.number), .lit ['h'], .grp 3 (.number), .opt (.lit ['m']), .grp 4 (.alts [.eos, .noWord])], [.ref 1, .ref 2, .lit [':'], .ref 3, .ref 4]),
    (.seqs [.grp 1 (.alts [.bos, .noWord]), .lit ['m', 'o', 'i', 'n', 's'], .cls false [.space], .opt (.seqs [.lit ['d', 'e'], .cls false [.space]]), .grp 2 (.number), .opt (.cls false [.space]), .grp 3 (.alts [.lit ['m', 'i', 'n', 'u', 't', 'e'], .lit ['s', 'e', 'c', 'o', 'n', 'd', 'e'], .lit ['h', 'e', 'u', 'r', 'e']]), .grp 4 (.alts [.eos, .noWord])], [.ref 1, .ref 2, .lit [' '], .ref 3, .ref 4]),
    (.seqs [.grp 1 (.alts [.bos, .noWord]), .lit ['m', 'o', 'i', 'n', 's'], .cls false [.space], .opt (.seqs [.lit ['d', 'e'], .cls false [.space]]), .grp 2 (.number), .opt (.cls false [.space]), .lit ['s'], .grp 3 (.alts [.eos, .noWord])], [.ref 1, .ref 2, .lit [' ', 's', 'e', 'c', 'o', 'n', 'd', 'e'], .ref 3]),
    (.seqs [.grp 1 (.alts [.bos, .noWord]), .lit ['m', 'o', 'i', 'n', 's'], .cls false [.space], .opt (.seqs [.lit ['d', 'e'], .cls false [.space]]), .grp 2 (.number), .opt (.cls false [.space]), .lit ['m'], .grp 3 (.alts [.eos, .noWord])], [.ref 1, .ref 2, .lit [' ', 'm', 'i', 'n', 'u', 't', 'e'], .ref 3]),
    (.seqs [.grp 1 (.alts [.bos, .noWord]), .lit ['m', 'o', 'i', 'n', 's'], .cls false [.space], .opt (.seqs [.lit ['d', 'e'], .cls false [.space]]), .grp 2 (.number), .opt (.cls false [.space]), .lit ['h'], .grp 3 (.alts [.eos, .noWord])], [.ref 1, .ref 2, .lit [' ', 'h', 'e', 'u', 'r', 'e'], .ref 3]),
    (.seqs [.grp 1 (.alts [.bos, .noWord]), .lit ['d', 'e', 'u', 'x'], .grp 2 (.alts [.eos, .noWord])], [.ref 1, .lit ['2'], .ref 2]),
    (.seqs [.grp 1 (.alts [.bos, .noWord]), .lit ['t', 'r', 'o', 'i', 's'], .grp 2 (.alts [.eos, .noWord])], [.ref 1, .lit ['3'], .ref 2]),
    (.seqs [.grp 1 (.alts [.bos, .noWord]), .lit ['q', 'u', 'a', 't', 'r', 'e'], .grp 2 (.alts [.eos, .noWord])], [.ref 1, .lit ['4'], .ref 2]),
    (.seqs [.grp 1 (.alts [.bos, .noWord]), .lit ['c', 'i', 'n', 'q'], .grp 2 (.alts [.eos, .noWord])], [.ref 1, .lit ['5'], .ref 2]),
    (.seqs [.grp 1 (.alts [.bos, .noWord]), .lit ['s', 'i', 'x'], .grp 2 (.alts [.eos, .noWord])], [.ref 1, .lit ['6'], .ref 2]),
    (.seqs [.grp 1 (.alts [.bos, .noWord]), .lit ['s', 'e', 'p', 't'], .grp 2 (.alts [.eos, .noWord])], [.ref 1, .lit ['7'], .ref 2]),
    (.seqs [.grp 1 (.alts [.bos, .noWord]), .lit ['h', 'u', 'i', 't'], .grp 2 (.alts [.eos, .noWord])], [.ref 1, .lit ['8'], .ref 2]),
    (.seqs [.grp 1 (.alts [.bos, .noWord]), .lit ['n', 'e', 'u', 'f'], .grp 2 (.alts [.eos, .noWord])], [.ref 1, .lit ['9'], .ref 2]),
    (.seqs [.grp 1 (.alts [.bos, .noWord]), .lit ['d', 'i', 'x'], .grp 2 (.alts [.eos, .noWord])], [.ref 1, .lit ['1', '0'], .ref 2]),
    (.seqs [.grp 1 (.alts [.bos, .noWord]), .lit ['o', 'n', 'z', 'e'], .grp 2 (.alts [.eos, .noWord])], [.ref 1, .lit ['1', '1'], .ref 2]),
    (.seqs [.grp 1 (.alts [.bos, .noWord]), .lit ['d', 'o', 'u', 'z', 'e'], .grp 2 (.alts [.eos, .noWord])], [.ref 1, .lit ['1', '2'], .ref 2])],
  relativeRegexes :=
   [(.seqs [.lit ['i', 'l', ' ', 'y', ' ', 'a', ' '], .grp 1 (.number), .lit [' ', 's', 'e', 'c', 'o', 'n', 'd', 'e', 's']], [.ref 1, .lit [' ', 's', 'e', 'c', 'o', 'n', 'd', ' ', 'a', 'g', 'o']]),
    (.seqs [.lit ['i', 'l', ' ', 'y', ' ', 'a', ' '], .grp 1 (.number), .lit [' ', 's', 'e', 'm', 'a', 'i', 'n', 'e', 's']], [.ref 1, .lit [' ', 'w', 'e', 'e', 'k', ' ', 'a', 'g', 'o']]),
    (.seqs [.lit ['i', 'l', ' ', 'y', ' ', 'a', ' '], .grp 1 (.number), .lit [' ', 'm', 'i', 'n', 'u', 't', 'e', 's']], [.ref 1, .lit [' ', 'm', 'i', 'n', 'u', 't', 'e', ' ', 'a', 'g', 'o']]),
    (.seqs [.lit ['i', 'l', ' ', 'y', ' ', 'a', ' '], .grp 1 (.number), .lit [' ', 's', 'e', 'c', 'o', 'n', 'd', 'e']], [.ref 1, .lit [' ', 's', 'e', 'c', 'o', 'n', 'd', ' ', 'a', 'g', 'o']]),
    (.seqs [.lit ['i', 'l', ' ', 'y', ' ', 'a', ' '], .grp 1 (.number), .lit [' ', 's', 'e', 'm', 'a', 'i', 'n', 'e']], [.ref 1, .lit [' ', 'w', 'e', 'e', 'k', ' ', 'a', 'g', 'o']]),
    (.seqs [.lit ['d', 'a', 'n', 's', ' '], .grp 1 (.number), .lit [' ', 's', 'e', 'c', 'o', 'n', 'd', 'e', 's']], [.lit ['i', 'n', ' '], .ref 1, .lit [' ', 's', 'e', 'c', 'o', 'n', 'd']]),
    (.seqs [.lit ['d', 'a', 'n', 's', ' '], .grp 1 (.number), .lit [' ', 's', 'e', 'm', 'a', 'i', 'n', 'e', 's']], [.lit ['i', 'n', ' '], .ref 1, .lit [' ', 'w', 'e', 'e', 'k']]),
    (.seqs [.lit ['i', 'l', ' ', 'y', ' ', 'a', ' '], .grp 1 (.number), .lit [' ', 'h', 'e', 'u', 'r', 'e', 's']], [.ref 1, .lit [' ', 'h', 'o', 'u', 'r', ' ', 'a', 'g', 'o']]),
    (.seqs [.lit ['i', 'l', ' ', 'y', ' ', 'a', ' '], .grp 1 (.number), .lit [' ', 'm', 'i', 'n', 'u', 't', 'e']], [.ref 1, .lit [' ', 'm', 'i', 'n', 'u', 't', 'e', ' ', 'a', 'g', 'o']]),
    (.seqs [.lit ['d', 'a', 'n', 's', ' '], .grp 1 (.number), .lit [' ', 'm', 'i', 'n', 'u', 't', 'e', 's']], [.lit ['i', 'n', ' '], .ref 1, .lit [' ', 'm', 'i', 'n', 'u', 't', 'e']]),
    (.seqs [.lit ['d', 'a', 'n', 's', ' '], .grp 1 (.number), .lit [' ', 's', 'e', 'c', 'o', 'n', 'd', 'e']], [.lit ['i', 'n', ' '], .ref 1, .lit [' ', 's', 'e', 'c', 'o', 'n', 'd']]),
    (.seqs [.lit ['d', 'a', 'n', 's', ' '], .grp 1 (.number), .lit [' ', 's', 'e', 'm', 'a', 'i', 'n', 'e']], [.lit ['i', 'n', ' '], .ref 1, .lit [' ', 'w', 'e', 'e', 'k']]),
    (.seqs [.lit ['i', 'l', ' ', 'y', ' ', 'a', ' '], .grp 1 (.number), .lit [' ', 'h', 'e', 'u', 'r', 'e']], [.ref 1, .lit [' ', 'h', 'o', 'u', 'r', ' ', 'a', 'g', 'o']]),
    (.seqs [.lit ['i', 'l', ' ', 'y', ' ', 'a', ' '], .grp 1 (.number), .lit [' ', 'j', 'o', 'u', 'r', 's']], [.ref 1, .lit [' ', 'd', 'a', 'y', ' ', 'a', 'g', 'o']]),
    (.seqs [.lit ['d', 'a', 'n', 's', ' '], .grp 1 (.number), .lit [' ', 'h', 'e', 'u', 'r', 'e', 's']], [.lit ['i', 'n', ' '], .ref 1, .lit [' ', 'h', 'o', 'u', 'r']]),
    (.seqs [.lit ['d', 'a', 'n', 's', ' '], .grp 1 (.number), .lit [' ', 'm', 'i', 'n', 'u', 't', 'e']], [.lit ['i', 'n', ' '], .ref 1, .lit [' ', 'm', 'i', 'n', 'u', 't', 'e']]),
    (.seqs [.lit ['i', 'l', ' ', 'y', ' ', 'a', ' '], .grp 1 (.number), .lit [' ', 'j', 'o', 'u', 'r']], [.ref 1, .lit [' ', 'd', 'a', 'y', ' ', 'a', 'g', 'o']]),
    (.seqs [.lit ['i', 'l', ' ', 'y', ' ', 'a', ' '], .grp 1 (.number), .lit [' ', 'm', 'o', 'i', 's']], [.ref 1, .lit [' ', 'm', 'o', 'n', 't', 'h', ' ', 'a', 'g', 'o']]),
    (.seqs [.lit ['d', 'a', 'n', 's', ' '], .grp 1 (.number), .lit [' ', 'h', 'e', 'u', 'r', 'e']], [.lit ['i', 'n', ' '], .ref 1, .lit [' ', 'h', 'o', 'u', 'r']]),
    (.seqs [.lit ['d', 'a', 'n', 's', ' '], .grp 1 (.number), .lit [' ', 'j', 'o', 'u', 'r', 's']], [.lit ['i', 'n', ' '], .ref 1, .lit [' ', 'd', 'a', 'y']]),
    (.seqs [.lit ['i', 'l', ' ', 'y', ' ', 'a', ' '], .grp 1 (.number), .lit [' ', 'a', 'n', 's']], [.ref 1, .lit [' ', 'y', 'e', 'a', 'r', ' ', 'a', 'g', 'o']]),
    (.seqs [.lit ['i', 'l', ' ', 'y', ' ', 'a', ' '], .grp 1 (.number), .lit [' ', 'm', 'i', 'n']], [.ref 1, .lit [' ', 'm', 'i', 'n', 'u', 't', 'e', ' ', 'a', 'g', 'o']]),
    (.seqs [.lit ['i', 'l', ' ', 'y', ' ', 'a', ' '], .grp 1 (.number), .lit [' ', 's', 'e', 'm']], [.ref 1, .lit [' ', 'w', 'e', 'e', 'k', ' ', 'a', 'g', 'o']]),
    (.seqs [.lit ['d', 'a', 'n', 's', ' '], .grp 1 (.number), .lit [' ', 'j', 'o', 'u', 'r']], [.lit ['i', 'n', ' '], .ref 1, .lit [' ', 'd', 'a', 'y']]),
    (.seqs [.lit ['d', 'a', 'n', 's', ' '], .grp 1 (.number), .lit [' ', 'm', 'o', 'i', 's']], [.lit ['i', 'n', ' '], .ref 1, .lit [' ', 'm', 'o', 'n', 't', 'h']]),
    (.seqs [.lit ['i', 'l', ' ', 'y', ' ', 'a', ' '], .grp 1 (.number), .lit [' ', 'a', 'n']], [.ref 1, .lit [' ', 'y', 'e', 'a', 'r', ' ', 'a', 'g', 'o']]),
    (.seqs [.lit ['i', 'l', ' ', 'y', ' ', 'a', ' '], .grp 1 (.number), .lit ['m', 'i', 'n']], [.ref 1, .lit [' ', 'm', 'i', 'n', 'u', 't', 'e', ' ', 'a', 'g', 'o']]),
    (.seqs [.lit ['d', 'a', 'n', 's', ' '], .grp 1 (.number), .lit [' ', 'a', 'n', 's']], [.lit ['i', 'n', ' '], .ref 1, .lit [' ', 'y', 'e', 'a', 'r']]),
    (.seqs [.lit ['d', 'a', 'n', 's', ' '], .grp 1 (.number), .lit [' ', 'm', 'i', 'n']], [.lit ['i', 'n', ' '], .ref 1, .lit [' ', 'm', 'i', 'n', 'u', 't', 'e']]),
    (.seqs [.lit ['d', 'a', 'n', 's', ' '], .grp 1 (.number), .lit [' ', 's', 'e', 'm']], [.lit ['i', 'n', ' '], .ref 1, .lit [' ', 'w', 'e', 'e', 'k']]),
    (.seqs [.lit ['i', 'l', ' ', 'y', ' ', 'a', ' '], .grp 1 (.number), .lit [' ', 'a']], [.ref 1, .lit [' ', 'y', 'e', 'a', 'r', ' ', 'a', 'g', 'o']]),
    (.seqs [.lit ['i', 'l', ' ', 'y', ' ', 'a', ' '], .grp 1 (.number), .lit [' ', 'h']], [.ref 1, .lit [' ', 'h', 'o', 'u', 'r', ' ', 'a', 'g', 'o']]),
    (.seqs [.lit ['i', 'l', ' ', 'y', ' ', 'a', ' '], .grp 1 (.number), .lit [' ', 'j']], [.ref 1, .lit [' ', 'd', 'a', 'y', ' ', 'a', 'g', 'o']]),
    (.seqs [.lit ['i', 'l', ' ', 'y', ' ', 'a', ' '], .grp 1 (.number), .lit [' ', 'm']], [.ref 1, .lit [' ', 'm', 'o', 'n', 't', 'h', ' ', 'a', 'g', 'o']]),
    (.seqs [.lit ['i', 'l', ' ', 'y', ' ', 'a', ' '], .grp 1 (.number), .lit [' ', 's']], [.ref 1, .lit [' ', 's', 'e', 'c', 'o', 'n', 'd', ' ', 'a', 'g', 'o']]),
    (.seqs [.lit ['d', 'a', 'n', 's', ' '], .grp 1 (.number), .lit [' ', 'a', 'n']], [.lit ['i', 'n', ' '], .ref 1, .lit [' ', 'y', 'e', 'a', 'r']]),
    (.seqs [.lit ['i', 'l', ' ', 'y', ' ', 'a', ' '], .grp 1 (.number), .lit ['h']], [.ref 1, .lit [' ', 'h', 'o', 'u', 'r', ' ', 'a', 'g', 'o']]),
    (.seqs [.lit ['d', 'a', 'n', 's', ' '], .grp 1 (.number), .lit [' ', 'a']], [.lit ['i', 'n', ' '], .ref 1, .lit [' ', 'y', 'e', 'a', 'r']]),
    (.seqs [.lit ['d', 'a', 'n', 's', ' '], .grp 1 (.number), .lit [' ', 'h']], [.lit ['i', 'n', ' '], .ref 1, .lit [' ', 'h', 'o', 'u', 'r']]),
    (.seqs [.lit ['d', 'a', 'n', 's', ' '], .grp 1 (.number), .lit [' ', 'j']], [.lit ['i', 'n', ' '], .ref 1, .lit [' ', 'd', 'a', 'y']]),
    (.seqs [.lit ['d', 'a', 'n', 's', ' '], .grp 1 (.number), .lit [' ', 'm']], [.lit ['i', 'n', ' '], .ref 1, .lit [' ', 'm', 'o', 'n', 't', 'h']]),
    (.seqs [.lit ['d', 'a', 'n', 's', ' '], .grp 1 (.number), .lit [' ', 's']], [.lit ['i', 'n', ' '], .ref 1, .lit [' ', 's', 'e', 'c', 'o', 'n', 'd']]),
    (.seqs [.lit ['d', 'a', 'n', 's', ' '], .grp 1 (.number), .lit ['h']], [.lit ['i', 'n', ' '], .ref 1, .lit [' ', 'h', 'o', 'u', 'r']])],
  rxCombined := some (.seqs [.grp 1 (.alts [.bos, .cls true [.letter, .mark, .digit], .lit ['_']]), .grp 2 (.alts [.seqs [.lit ['i', 'l', ' ', 'y', ' ', 'a', ' '], .number, .lit [' ', 's', 'e', 'c', 'o', 'n', 'd', 'e', 's']], .seqs [.lit ['i', 'l', ' ', 'y', ' ', 'a', ' '], .number, .lit [' ', 's', 'e', 'm', 'a', 'i', 'n', 'e', 's']], .seqs [.lit ['i', 'l', ' ', 'y', ' ', 'a', ' '], .number, .lit [' ', 'm', 'i', 'n', 'u', 't', 'e', 's']], .seqs [.lit ['i', 'l', ' ', 'y', ' ', 'a', ' '], .number, .lit [' ', 's', 'e', 'c', 'o', 'n', 'd', 'e']], .seqs [.lit ['i', 'l', ' ', 'y', ' ', 'a', ' '], .number, .lit [' ', 's', 'e', 'm', 'a', 'i', 'n', 'e']], .seqs [.lit ['d', 'a', 'n', 's', ' '], .number, .lit [' ', 's', 'e', 'c', 'o', 'n', 'd', 'e', 's']], .seqs [.lit ['d', 'a', 'n', 's', ' '], .number, .lit [' ', 's', 'e', 'm', 'a', 'i', 'n', 'e', 's']], .seqs [.lit ['i', 'l', ' ', 'y', ' ', 'a', ' '], .number, .lit [' ', 'h', 'e', 'u', 'r', 'e', 's']], .seqs [.lit ['i', 'l', ' ', 'y', ' ', 'a', ' '], .number, .lit [' ', 'm', 'i', 'n', 'u', 't', 'e']], .seqs [.lit ['d', 'a', 'n', 's', ' '], .number, .lit [' ', 'm', 'i', 'n', 'u', 't', 'e', 's']], .seqs [.lit ['d', 'a', 'n', 's', ' '], .number, .lit [' ', 's', 'e', 'c', 'o', 'n', 'd', 'e']], .seqs [.lit ['d', 'a', 'n', 's', ' '], .number, .lit [' ', 's', 'e', 'm', 'a', 'i', 'n', 'e']], .seqs [.lit ['i', 'l', ' ', 'y', ' ', 'a', ' '], .number, .lit [' ', 'h', 'e', 'u', 'r', 'e']], .seqs [.lit ['i', 'l', ' ', 'y', ' ', 'a', ' '], .number, .lit [' ', 'j', 'o', 'u', 'r', 's']], .seqs [.lit ['d', 'a', 'n', 's', ' '], .number, .lit [' ', 'h', 'e', 'u', 'r', 'e', 's']], .seqs [.lit ['d', 'a', 'n', 's', ' '], .number, .lit [' ', 'm', 'i', 'n', 'u', 't', 'e']], .seqs [.lit ['i', 'l', ' ', 'y', ' ', 'a', ' '], .number, .lit [' ', 'j', 'o', 'u', 'r']], .seqs [.lit ['i', 'l', ' ', 'y', ' ', 'a', ' '], .number, .lit [' ', 'm', 'o', 'i', 's']], .seqs [.lit ['d', 'a', 'n', 's', ' '], .number, .lit [' ', 'h', 'e', 'u', 'r', 'e']], .seqs [.lit ['d', 'a', 'n', 's', ' '], .number, .lit [' ', 'j', 'o', 'u', 'r', 's']], .seqs [.lit ['i', 'l', ' ', 'y', ' ', 'a', ' '], .number, .lit [' ', 'a', 'n', 's']], .seqs [.lit ['i', 'l', ' ', 'y', ' ', 'a', ' '], .number, .lit [' ', 'm', 'i', 'n']], .seqs [.lit ['i', 'l', ' ', 'y', ' ', 'a', ' '], .number, .lit [' ', 's', 'e', 'm']], .seqs [.lit ['d', 'a', 'n', 's', ' '], .number, .lit [' ', 'j', 'o', 'u', 'r']], .seqs [.lit ['d', 'a', 'n', 's', ' '], .number, .lit [' ', 'm', 'o', 'i', 's']], .seqs [.lit ['i', 'l', ' ', 'y', ' ', 'a', ' '], .number, .lit [' ', 'a', 'n']], .seqs [.lit ['i', 'l', ' ', 'y', ' ', 'a', ' '], .number, .lit ['m', 'i', 'n']], .seqs [.lit ['d', 'a', 'n', 's', ' '], .number, .lit [' ', 'a', 'n', 's']], .seqs [.lit ['d', 'a', 'n', 's', ' '], .number, .lit [' ', 'm', 'i', 'n']], .seqs [.lit ['d', 'a', 'n', 's', ' '], .number, .lit [' ', 's', 'e', 'm']], .seqs [.lit ['i', 'l', ' ', 'y', ' ', 'a', ' '], .number, .lit [' ', 'a']], .seqs [.lit ['i', 'l', ' ', 'y', ' ', 'a', ' '], .number, .lit [' ', 'h']], .seqs [.lit ['i', 'l', ' ', 'y', ' ', 'a', ' '], .number, .lit [' ', 'j']], .seqs [.lit ['i', 'l', ' ', 'y', ' ', 'a', ' '], .number, .lit [' ', 'm']], .seqs [.lit ['i', 'l', ' ', 'y', ' ', 'a', ' '], .number, .lit [' ', 's']], .seqs [.lit ['d', 'a', 'n', 's', ' '], .number, .lit [' ', 'a', 'n']], .seqs [.lit ['i', 'l', ' ', 'y', ' ', 'a', ' '], .number, .lit ['h']], .seqs [.lit ['d', 'a', 'n', 's', ' '], .number, .lit [' ', 'a']], .seqs [.lit ['d', 'a', 'n', 's', ' '], .number, .lit [' ', 'h']], .seqs [.lit ['d', 'a', 'n', 's', ' '], .number, .lit [' ', 'j']], .seqs [.lit ['d', 'a', 'n', 's', ' '], .number, .lit [' ', 'm']], .seqs [.lit ['d', 'a', 'n', 's', ' '], .number, .lit [' ', 's']], .seqs [.lit ['d', 'a', 'n', 's', ' '], .number, .lit ['h']]]), .grp 3 (.alts [.eos, .cls true [.letter, .mark, .digit], .lit ['_']])], 3),
  rxExact := some (.seqs [.bos, .grp 1 (.alts [.seqs [.lit ['i', 'l', ' ', 'y', ' ', 'a', ' '], .number, .lit [' ', 's', 'e', 'c', 'o', 'n', 'd', 'e', 's']], .seqs [.lit ['i', 'l', ' ', 'y', ' ', 'a', ' '], .number, .lit [' ', 's', 'e', 'm', 'a', 'i', 'n', 'e', 's']], .seqs [.lit ['i', 'l', ' ', 'y', ' ', 'a', ' '], .number, .lit [' ', 'm', 'i', 'n', 'u', 't', 'e', 's']], .seqs [.lit ['i', 'l', ' ', 'y', ' ', 'a', ' '], .number, .lit [' ', 's', 'e', 'c', 'o', 'n', 'd', 'e']], .seqs [.lit ['i', 'l', ' ', 'y', ' ', 'a', ' '], .number, .lit [' ', 's', 'e', 'm', 'a', 'i', 'n', 'e']], .seqs [.lit ['d', 'a', 'n', 's', ' '], .number, .lit [' ', 's', 'e', 'c', 'o', 'n', 'd', 'e', 's']], .seqs [.lit ['d', 'a', 'n', 's', ' '], .number, .lit [' ', 's', 'e', 'm', 'a', 'i', 'n', 'e', 's']], .seqs [.lit ['i', 'l', ' ', 'y', ' ', 'a', ' '], .number, .lit [' ', 'h', 'e', 'u', 'r', 'e', 's']], .seqs [.lit ['i', 'l', ' ', 'y', ' ', 'a', ' '], .number, .lit [' ', 'm', 'i', 'n', 'u', 't', 'e']], .seqs [.lit ['d', 'a', 'n', 's', ' '], .number, .lit [' ', 'm', 'i', 'n', 'u', 't', 'e', 's']], .seqs [.lit ['d', 'a', 'n', 's', ' '], .number, .lit [' ', 's', 'e', 'c', 'o', 'n', 'd', 'e']], .seqs [.lit ['d', 'a', 'n', 's', ' '], .number, .lit [' ', 's', 'e', 'm', 'a', 'i', 'n', 'e']], .seqs [.lit ['i', 'l', ' ', 'y', ' ', 'a', ' '], .number, .lit [' ', 'h', 'e', 'u', 'r', 'e']], .seqs [.lit ['i', 'l', ' ', 'y', ' ', 'a', ' '], .number, .lit [' ', 'j', 'o', 'u', 'r', 's']], .seqs [.lit ['d', 'a', 'n', 's', ' '], .number, .lit [' ', 'h', 'e', 'u', 'r', 'e', 's']], .seqs [.lit ['d', 'a', 'n', 's', ' '], .number, .lit [' ', 'm', 'i', 'n', 'u', 't', 'e']], .seqs [.lit ['i', 'l', ' ', 'y', ' ', 'a', ' '], .number, .lit [' ', 'j', 'o', 'u', 'r']], .seqs [.lit ['i', 'l', ' ', 'y', ' ', 'a', ' '], .number, .lit [' ', 'm', 'o', 'i', 's']], .seqs [.lit ['d', 'a', 'n', 's', ' '], .number, .lit [' ', 'h', 'e', 'u', 'r', 'e']], .seqs [.lit ['d', 'a', 'n', 's', ' '], .number, .lit [' ', 'j', 'o', 'u', 'r', 's']], .seqs [.lit ['i', 'l', ' ', 'y', ' ', 'a', ' '], .number, .lit [' ', 'a', 'n', 's']], .seqs [.lit ['i', 'l', ' ', 'y', ' ', 'a', ' '], .number, .lit [' ', 'm', 'i', 'n']], .seqs [.lit ['i', 'l', ' ', 'y', ' ', 'a', ' '], .number, .lit [' ', 's', 'e', 'm']], .seqs [.lit ['d', 'a', 'n', 's', ' '], .number, .lit [' ', 'j', 'o', 'u', 'r']], .seqs [.lit ['d', 'a', 'n', 's', ' '], .number, .lit [' ', 'm', 'o', 'i', 's']], .seqs [.lit ['i', 'l', ' ', 'y', ' ', 'a', ' '], .number, .lit [' ', 'a', 'n']], .seqs [.lit ['i', 'l', ' ', 'y', ' ', 'a', ' '], .number, .lit ['m', 'i', 'n']], .seqs [.lit ['d', 'a', 'n', 's', ' '], .number, .lit [' ', 'a', 'n', 's']], .seqs [.lit ['d', 'a', 'n', 's', ' '], .number, .lit [' ', 'm', 'i', 'n']], .seqs [.lit ['d', 'a', 'n', 's', ' '], .number, .lit [' ', 's', 'e', 'm']], .seqs [.lit ['i', 'l', ' ', 'y', ' ', 'a', ' '], .number, .lit [' ', 'a']], .seqs [.lit ['i', 'l', ' ', 'y', ' ', 'a', ' '], .number, .lit [' ', 'h']], .seqs [.lit ['i', 'l', ' ', 'y', ' ', 'a', ' '], .number, .lit [' ', 'j']], .seqs [.lit ['i', 'l', ' ', 'y', ' ', 'a', ' '], .number, .lit [' ', 'm']], .seqs [.lit ['i', 'l', ' ', 'y', ' ', 'a', ' '], .number, .lit [' ', 's']], .seqs [.lit ['d', 'a', 'n', 's', ' '], .number, .lit [' ', 'a', 'n']], .seqs [.lit ['i', 'l', ' ', 'y', ' ', 'a', ' '], .number, .lit ['h']], .seqs [.lit ['d', 'a', 'n', 's', ' '], .number, .lit [' ', 'a']], .seqs [.lit ['d', 'a', 'n', 's', ' '], .number, .lit [' ', 'h']], .seqs [.lit ['d', 'a', 'n', 's', ' '], .number, .lit [' ', 'j']], .seqs [.lit ['d', 'a', 'n', 's', ' '], .number, .lit [' ', 'm']], .seqs [.lit ['d', 'a', 'n', 's', ' '], .number, .lit [' ', 's']], .seqs [.lit ['d', 'a', 'n', 's', ' '], .number, .lit ['h']]]), .eos]),
  knownWords :=
   [['l', 'a', ' ', 's', 'e', 'm', 'a', 'i', 'n', 'e', ' ', 'p', 'r', 'o', 'c', 'h', 'a', 'i', 'n', 'e'], ['l', 'a', ' ', 's', 'e', 'm', 'a', 'i', 'n', 'e', ' ', 'd', 'e', 'r', 'n', 'i', 'e', 'r', 'e'], ['l', '\'', 'a', 'n', 'n', 'e', 'e', ' ', 'p', 'r', 'o', 'c', 'h', 'a', 'i', 'n', 'e'], ['l', '\'', 'a', 'n', 'n', 'e', 'e', ' ', 'd', 'e', 'r', 'n', 'i', 'e', 'r', 'e'], ['l', 'e', ' ', 'm', 'o', 'i', 's', ' ', 'p', 'r', 'o', 'c', 'h', 'a', 'i', 'n'], ['c', 'e', 't', 't', 'e', ' ', 'm', 'i', 'n', 'u', 't', 'e', '-', 'c', 'i'], ['l', 'e', ' ', 'm', 'o', 'i', 's', ' ', 'd', 'e', 'r', 'n', 'i', 'e', 'r'], ['c', 'e', 't', 't', 'e', ' ', 'h', 'e', 'u', 'r', 'e', '-', 'c', 'i'], ['c', 'e', 't', 't', 'e', ' ', 's', 'e', 'm', 'a', 'i', 'n', 'e'], ['a', 'p', 'r', 'e', 's', '-', 'd', 'e', 'm', 'a', 'i', 'n'], ['a', 'u', 'j', 'o', 'u', 'r', 'd', '\'', 'h', 'u', 'i'], ['c', 'e', 't', 't', 'e', ' ', 'a', 'n', 'n', 'e', 'e'], ['a', 'v', 'a', 'n', 't', '-', 'h', 'i', 'e', 'r'], ['c', 'e', ' ', 'm', 'o', 'i', 's', '-', 'c', 'i'], ['m', 'a', 'i', 'n', 't', 'e', 'n', 'a', 'n', 't'], ['s', 'e', 'p', 't', 'e', 'm', 'b', 'r', 'e'], ['d', 'e', 'c', 'e', 'm', 'b', 'r', 'e'], ['d', 'i', 'm', 'a', 'n', 'c', 'h', 'e'], ['m', 'e', 'r', 'c', 'r', 'e', 'd', 'i'], ['n', 'o', 'v', 'e', 'm', 'b', 'r', 'e'], ['s', 'e', 'c', 'o', 'n', 'd', 'e', 's'], ['s', 'e', 'm', 'a', 'i', 'n', 'e', 's'], ['v', 'e', 'n', 'd', 'r', 'e', 'd', 'i'], ['e', 'n', 'v', 'i', 'r', 'o', 'n'], ['f', 'e', 'v', 'r', 'i', 'e', 'r'], ['j', 'a', 'n', 'v', 'i', 'e', 'r'], ['j', 'u', 'i', 'l', 'l', 'e', 't'], ['m', 'i', 'n', 'u', 't', 'e', 's'], ['o', 'c', 't', 'o', 'b', 'r', 'e'], ['s', 'e', 'c', 'o', 'n', 'd', 'e'], ['s', 'e', 'm', 'a', 'i', 'n', 'e'], ['a', 'n', 'n', 'e', 'e', 's'], ['d', 'e', 'm', 'a', 'i', 'n'], ['h', 'e', 'u', 'r', 'e', 's'], ['i', 'l', ' ', 'y', ' ', 'a'], ['m', 'i', 'n', 'u', 't', 'e'], ['s', 'a', 'm', 'e', 'd', 'i'], ['a', 'n', 'n', 'e', 'e'], ['a', 'p', 'r', 'e', 's'], ['a', 'v', 'r', 'i', 'l'], ['h', 'e', 'u', 'r', 'e'], ['i', 'l', ' ', 'y', 'a'], ['j', 'e', 'u', 'd', 'i'], ['j', 'o', 'u', 'r', 's'], ['l', 'u', 'n', 'd', 'i'], ['m', 'a', 'r', 'd', 'i'], ['a', 'o', 'u', 't'], ['d', 'a', 'n', 's'], ['f', 'e', 'v', 'r'], ['h', 'i', 'e', 'r'], ['j', 'a', 'n', 'v'], ['j', 'o', 'u', 'r'], ['j', 'u', 'i', 'l'], ['j', 'u', 'i', 'n'], ['m', 'a', 'r', 's'], ['m', 'o', 'i', 's'], ['s', 'e', 'p', 't'], ['a', 'n', 's'], ['a', 'o', 'u'], ['a', 'v', 'r'], ['d', 'e', 'c'], ['d', 'i', 'm'], ['f', 'e', 'v'], ['g', 'm', 't'], ['j', 'a', 'n'], ['j', 'e', 'u'], ['j', 'u', 'l'], ['j', 'u', 'n'], ['l', 'u', 'n'], ['m', 'a', 'i'], ['m', 'a', 'r'], ['m', 'e', 'r'], ['m', 'i', 'n'], ['n', 'o', 'v'], ['o', 'c', 't'], ['s', 'a', 'm'], ['s', 'e', 'm'], ['s', 'e', 'p'], ['u', 't', 'c'], ['v', 'e', 'n'], ['a', 'm'], ['a', 'n'], ['d', 'i'], ['e', 'n'], ['e', 'r'], ['e', 't'], ['j', 'e'], ['l', 'e'], ['l', 'u'], ['m', 'a'], ['m', 'e'], ['p', 'm'], ['s', 'a'], ['v', 'e'], [' '], ['\''], ['+'], [','], ['-'], ['.'], ['/'], [':'], [';'], ['@'], ['['], [']'], ['a'], ['h'], ['j'], ['m'], ['s'], ['z'], ['|']] }

end Verif.Data
