import Verif.Model.Pattern
/-! GENERATED by tools/gen_langs.py from /repo/internal/data/en.go; do not edit. -/
set_option autoImplicit false
set_option maxRecDepth 100000
namespace Verif.Data
open Verif.Model

/-- internal/data/en.go: `en_Locale`. -/
def enData : LangData where
  name := ['e', 'n']
  splitterGroup := 1
  simplifications :=
   [(.seqs [.grp 1 (.alts [.bos, .noWord]), .lit ['a', 'n'], .grp 2 (.alts [.eos, .noWord])], [.ref 1, .lit ['1'], .ref 2]),
    (.seqs [.grp 1 (.alts [.bos, .noWord]), .lit ['a'], .grp 2 (.alts [.eos, .noWord])], [.ref 1, .lit ['1'], .ref 2]),
    (.seqs [.grp 1 (.alts [.bos, .noWord]), .opt (.seqs [.lit ['1', '2'], .plus (.cls false [.space])]), .lit ['n', 'o', 'o', 'n'], .grp 2 (.alts [.eos, .noWord])], [.ref 1, .lit ['1', '2', ':', '0', '0'], .ref 2]),
    (.seqs [.grp 1 (.alts [.bos, .noWord]), .opt (.seqs [.lit ['1', '2'], .plus (.cls false [.space])]), .lit ['m', 'i', 'd', 'n', 'i', 'g', 'h', 't'], .grp 2 (.alts [.eos, .noWord])], [.ref 1, .lit ['0', '0', ':', '0', '0'], .ref 2]),
    (.seqs [.grp 1 (.alts [.bos, .noWord]), .grp 2 (.number), .lit ['h'], .grp 3 (.number), .grp 4 (.alts [.eos, .noWord])], [.ref 1, .ref 2, .lit [':'], .ref 3, .ref 4]),
    (.seqs [.grp 1 (.alts [.bos, .noWord]), .grp 2 (.seqs [.lit ['f', 'r', 'o', 'm'], .plus (.cls false [.space])]), .lit ['n', 'o', 'w'], .grp 3 (.alts [.eos, .noWord])], [.ref 1, .ref 2, .lit ['i', 'n'], .ref 3]),
    (.seqs [.grp 1 (.alts [.bos, .noWord]), .lit ['l', 'e', 's', 's', ' ', 't', 'h', 'a', 'n', ' ', '1', ' ', 'm', 'i', 'n', 'u', 't', 'e', ' ', 'a', 'g', 'o'], .grp 2 (.alts [.eos, .noWord])], [.ref 1, .lit ['4', '5', ' ', 's', 'e', 'c', 'o', 'n', 'd', ' ', 'a', 'g', 'o'], .ref 2]),
    (.seqs [.grp 1 (.alts [.bos, .noWord]), .grp 2 (.number), .lit [' '], .grp 3 (.alts [.lit ['d', 'e', 'c', 'a', 'd', 'e'], .lit ['y', 'e', 'a', 'r'], .lit ['m', 'o', 'n', 't', 'h'], .lit ['w', 'e', 'e', 'k'], .lit ['d', 'a', 'y'], .lit ['h', 'o', 'u', 'r'], .lit ['m', 'i', 'n', 'u', 't', 'e'], .lit ['s', 'e', 'c', 'o', 'n', 'd']]), .opt (.lit ['s']), .lit [' ', 'l', 'a', 't', 'e', 'r'], .grp 4 (.alts [.eos, .noWord])], [.ref 1, .lit ['i', 'n', ' '], .ref 2, .lit [' '], .ref 3, .ref 4]),
    (.seqs [.grp 1 (.alts [.bos, .noWord]), .lit ['o', 'n', 'e'], .grp 2 (.alts [.eos, .noWord])], [.ref 1, .lit ['1'], .ref 2]),
    (.seqs [.grp 1 (.alts [.bos, .noWord]), .lit ['t', 'w', 'o'], .grp 2 (.alts [.eos, .noWord])], [.ref 1, .lit ['2'], .ref 2]),
    (.seqs [.grp 1 (.alts [.bos, .noWord]), .lit ['t', 'h', 'r', 'e', 'e'], .grp 2 (.alts [.eos, .noWord])], [.ref 1, .lit ['3'], .ref 2]),
    (.seqs [.grp 1 (.alts [.bos, .noWord]), .lit ['f', 'o', 'u', 'r'], .grp 2 (.alts [.eos, .noWord])], [.ref 1, .lit ['4'], .ref 2]),
    (.seqs [.grp 1 (.alts [.bos, .noWord]), .lit ['f', 'i', 'v', 'e'], .grp 2 (.alts [.eos, .noWord])], [.ref 1, .lit ['5'], .ref 2]),
    (.seqs [.grp 1 (.alts [.bos, .noWord]), .lit ['s', 'i', 'x'], .grp 2 (.alts [.eos, .noWord])], [.ref 1, .lit ['6'], .ref 2]),
    (.seqs [.grp 1 (.alts [.bos, .noWord]), .lit ['s', 'e', 'v', 'e', 'n'], .grp 2 (.alts [.eos, .noWord])], [.ref 1, .lit ['7'], .ref 2]),
    (.seqs [.grp 1 (.alts [.bos, .noWord]), .lit ['e', 'i', 'g', 'h', 't'], .grp 2 (.alts [.eos, .noWord])], [.ref 1, .lit ['8'], .ref 2]),
    (.seqs [.grp 1 (.alts [.bos, .noWord]), .lit ['n', 'i', 'n', 'e'], .grp 2 (.alts [.eos, .noWord])], [.ref 1, .lit ['9'], .ref 2]),
    (.seqs [.grp 1 (.alts [.bos, .noWord]), .lit ['t', 'e', 'n'], .grp 2 (.alts [.eos, .noWord])], [.ref 1, .lit ['1', '0'], .ref 2]),
    (.seqs [.grp 1 (.alts [.bos, .noWord]), .lit ['e', 'l', 'e', 'v', 'e', 'n'], .grp 2 (.alts [.eos, .noWord])], [.ref 1, .lit ['1', '1'], .ref 2]),
    (.seqs [.grp 1 (.alts [.bos, .noWord]), .lit ['t', 'w', 'e', 'l', 'v', 'e'], .grp 2 (.alts [.eos, .noWord])], [.ref 1, .lit ['1', '2'], .ref 2])]
  translations :=
   [(['s', 'e', 'p', 't', 'e', 'm', 'b', 'e', 'r'], [['s', 'e', 'p', 't', 'e', 'm', 'b', 'e', 'r']]),
    (['w', 'e', 'd', 'n', 'e', 's', 'd', 'a', 'y'], [['w', 'e', 'd', 'n', 'e', 's', 'd', 'a', 'y']]),
    (['d', 'e', 'c', 'e', 'm', 'b', 'e', 'r'], [['d', 'e', 'c', 'e', 'm', 'b', 'e', 'r']]),
    (['f', 'e', 'b', 'r', 'u', 'a', 'r', 'y'], [['f', 'e', 'b', 'r', 'u', 'a', 'r', 'y']]),
    (['f', 'r', 'o', 'm', ' ', 'n', 'o', 'w'], [['i', 'n']]),
    (['n', 'o', 'v', 'e', 'm', 'b', 'e', 'r'], [['n', 'o', 'v', 'e', 'm', 'b', 'e', 'r']]),
    (['s', 'a', 't', 'u', 'r', 'd', 'a', 'y'], [['s', 'a', 't', 'u', 'r', 'd', 'a', 'y']]),
    (['t', 'h', 'u', 'r', 's', 'd', 'a', 'y'], [['t', 'h', 'u', 'r', 's', 'd', 'a', 'y']]),
    (['d', 'e', 'c', 'a', 'd', 'e', 's'], [['d', 'e', 'c', 'a', 'd', 'e']]),
    (['j', 'a', 'n', 'u', 'a', 'r', 'y'], [['j', 'a', 'n', 'u', 'a', 'r', 'y']]),
    (['m', 'i', 'n', 'u', 't', 'e', 's'], [['m', 'i', 'n', 'u', 't', 'e']]),
    (['o', 'c', 't', 'o', 'b', 'e', 'r'], [['o', 'c', 't', 'o', 'b', 'e', 'r']]),
    (['s', 'e', 'c', 'o', 'n', 'd', 's'], [['s', 'e', 'c', 'o', 'n', 'd']]),
    (['t', 'u', 'e', 's', 'd', 'a', 'y'], [['t', 'u', 'e', 's', 'd', 'a', 'y']]),
    (['a', 'u', 'g', 'u', 's', 't'], [['a', 'u', 'g', 'u', 's', 't']]),
    (['b', 'e', 'f', 'o', 'r', 'e'], [['a', 'g', 'o']]),
    (['d', 'e', 'c', 'a', 'd', 'e'], [['d', 'e', 'c', 'a', 'd', 'e']]),
    (['f', 'r', 'i', 'd', 'a', 'y'], [['f', 'r', 'i', 'd', 'a', 'y']]),
    (['m', 'i', 'n', 'u', 't', 'e'], [['m', 'i', 'n', 'u', 't', 'e']]),
    (['m', 'o', 'n', 'd', 'a', 'y'], [['m', 'o', 'n', 'd', 'a', 'y']]),
    (['m', 'o', 'n', 't', 'h', 's'], [['m', 'o', 'n', 't', 'h']]),
    (['s', 'e', 'c', 'o', 'n', 'd'], [['s', 'e', 'c', 'o', 'n', 'd']]),
    (['s', 'u', 'n', 'd', 'a', 'y'], [['s', 'u', 'n', 'd', 'a', 'y']]),
    (['a', 'b', 'o', 'u', 't'], [[]]),
    (['a', 'f', 't', 'e', 'r'], [['i', 'n']]),
    (['a', 'p', 'r', 'i', 'l'], [['a', 'p', 'r', 'i', 'l']]),
    (['h', 'o', 'u', 'r', 's'], [['h', 'o', 'u', 'r']]),
    (['m', 'a', 'r', 'c', 'h'], [['m', 'a', 'r', 'c', 'h']]),
    (['m', 'o', 'n', 't', 'h'], [['m', 'o', 'n', 't', 'h']]),
    (['w', 'e', 'e', 'k', 's'], [['w', 'e', 'e', 'k']]),
    (['y', 'e', 'a', 'r', 's'], [['y', 'e', 'a', 'r']]),
    (['d', 'a', 'y', 's'], [['d', 'a', 'y']]),
    (['h', 'o', 'u', 'r'], [['h', 'o', 'u', 'r']]),
    (['j', 'u', 'l', 'y'], [['j', 'u', 'l', 'y']]),
    (['j', 'u', 'n', 'e'], [['j', 'u', 'n', 'e']]),
    (['j', 'u', 's', 't'], [[]]),
    (['m', 'i', 'n', 's'], [['m', 'i', 'n', 'u', 't', 'e']]),
    (['s', 'e', 'c', 's'], [['s', 'e', 'c', 'o', 'n', 'd']]),
    (['s', 'e', 'p', 't'], [['s', 'e', 'p', 't', 'e', 'm', 'b', 'e', 'r']]),
    (['t', 'u', 'e', 's'], [['t', 'u', 'e', 's', 'd', 'a', 'y']]),
    (['w', 'e', 'e', 'k'], [['w', 'e', 'e', 'k']]),
    (['y', 'e', 'a', 'r'], [['y', 'e', 'a', 'r']]),
    (['a', 'g', 'o'], [['a', 'g', 'o']]),
    (['a', 'n', 'd'], [[]]),
    (['a', 'p', 'r'], [['a', 'p', 'r', 'i', 'l']]),
    (['a', 'u', 'g'], [['a', 'u', 'g', 'u', 's', 't']]),
    (['d', 'a', 'y'], [['d', 'a', 'y']]),
    (['d', 'e', 'c'], [['d', 'e', 'c', 'e', 'm', 'b', 'e', 'r']]),
    (['f', 'e', 'b'], [['f', 'e', 'b', 'r', 'u', 'a', 'r', 'y']]),
    (['f', 'r', 'i'], [['f', 'r', 'i', 'd', 'a', 'y']]),
    (['g', 'm', 't'], [['g', 'm', 't']]),
    (['h', 'r', 's'], [['h', 'o', 'u', 'r']]),
    (['j', 'a', 'n'], [['j', 'a', 'n', 'u', 'a', 'r', 'y']]),
    (['j', 'u', 'l'], [['j', 'u', 'l', 'y']]),
    (['j', 'u', 'n'], [['j', 'u', 'n', 'e']]),
    (['m', 'a', 'r'], [['m', 'a', 'r', 'c', 'h']]),
    (['m', 'a', 'y'], [['m', 'a', 'y']]),
    (['m', 'i', 'n'], [['m', 'i', 'n', 'u', 't', 'e']]),
    (['m', 'o', 'n'], [['m', 'o', 'n', 'd', 'a', 'y']]),
    (['n', 'o', 'v'], [['n', 'o', 'v', 'e', 'm', 'b', 'e', 'r']]),
    (['o', 'c', 't'], [['o', 'c', 't', 'o', 'b', 'e', 'r']]),
    (['s', 'a', 't'], [['s', 'a', 't', 'u', 'r', 'd', 'a', 'y']]),
    (['s', 'e', 'c'], [['s', 'e', 'c', 'o', 'n', 'd']]),
    (['s', 'e', 'p'], [['s', 'e', 'p', 't', 'e', 'm', 'b', 'e', 'r']]),
    (['s', 'u', 'n'], [['s', 'u', 'n', 'd', 'a', 'y']]),
    (['t', 'h', 'e'], [[]]),
    (['t', 'h', 'u'], [['t', 'h', 'u', 'r', 's', 'd', 'a', 'y']]),
    (['t', 'u', 'e'], [['t', 'u', 'e', 's', 'd', 'a', 'y']]),
    (['u', 't', 'c'], [['u', 't', 'c']]),
    (['w', 'e', 'd'], [['w', 'e', 'd', 'n', 'e', 's', 'd', 'a', 'y']]),
    (['a', 'd'], [[]]),
    (['a', 'm'], [['a', 'm']]),
    (['a', 't'], [[]]),
    (['b', 'y'], [[]]),
    (['h', 'r'], [['h', 'o', 'u', 'r']]),
    (['i', 'n'], [['i', 'n']]),
    (['m', 'o'], [['m', 'o', 'n', 't', 'h']]),
    (['n', 'd'], [[]]),
    (['o', 'f'], [[]]),
    (['o', 'n'], [[]]),
    (['p', 'm'], [['p', 'm']]),
    (['r', 'd'], [[]]),
    (['s', 't'], [[]]),
    (['t', 'h'], [[]]),
    (['w', 'k'], [['w', 'e', 'e', 'k']]),
    (['y', 'r'], [['y', 'e', 'a', 'r']]),
    ([' '], [[' ']]),
    (['\''], [[]]),
    (['+'], [['+']]),
    ([','], [[]]),
    (['-'], [['-']]),
    (['.'], [['.']]),
    (['/'], [['/']]),
    ([':'], [[':']]),
    ([';'], [[]]),
    (['@'], [[]]),
    (['['], [[]]),
    ([']'], [[]]),
    (['d'], [['d', 'a', 'y']]),
    (['h'], [['h', 'o', 'u', 'r']]),
    (['m'], [['m', 'i', 'n', 'u', 't', 'e']]),
    (['s'], [['s', 'e', 'c', 'o', 'n', 'd']]),
    (['y'], [['y', 'e', 'a', 'r']]),
    (['z'], [['z']]),
    (['|'], [[]])]
  relativeType :=
   [(['d', 'a', 'y', ' ', 'b', 'e', 'f', 'o', 'r', 'e', ' ', 'y', 'e', 's', 't', 'e', 'r', 'd', 'a', 'y'], ['2', ' ', 'd', 'a', 'y', ' ', 'a', 'g', 'o']),
    (['d', 'a', 'y', ' ', 'a', 'f', 't', 'e', 'r', ' ', 't', 'o', 'm', 'o', 'r', 'r', 'o', 'w'], ['i', 'n', ' ', '2', ' ', 'd', 'a', 'y']),
    (['l', 'a', 's', 't', ' ', 'd', 'e', 'c', 'a', 'd', 'e'], ['1', ' ', 'd', 'e', 'c', 'a', 'd', 'e', ' ', 'a', 'g', 'o']),
    (['n', 'e', 'x', 't', ' ', 'd', 'e', 'c', 'a', 'd', 'e'], ['i', 'n', ' ', '1', ' ', 'd', 'e', 'c', 'a', 'd', 'e']),
    (['t', 'h', 'i', 's', ' ', 'd', 'e', 'c', 'a', 'd', 'e'], ['1', ' ', 'd', 'e', 'c', 'a', 'd', 'e', ' ', 'a', 'g', 'o']),
    (['t', 'h', 'i', 's', ' ', 'm', 'i', 'n', 'u', 't', 'e'], ['0', ' ', 'm', 'i', 'n', 'u', 't', 'e', ' ', 'a', 'g', 'o']),
    (['l', 'a', 's', 't', ' ', 'm', 'o', 'n', 't', 'h'], ['1', ' ', 'm', 'o', 'n', 't', 'h', ' ', 'a', 'g', 'o']),
    (['n', 'e', 'x', 't', ' ', 'm', 'o', 'n', 't', 'h'], ['i', 'n', ' ', '1', ' ', 'm', 'o', 'n', 't', 'h']),
    (['t', 'h', 'i', 's', ' ', 'm', 'o', 'n', 't', 'h'], ['0', ' ', 'm', 'o', 'n', 't', 'h', ' ', 'a', 'g', 'o']),
    (['l', 'a', 's', 't', ' ', 'w', 'e', 'e', 'k'], ['1', ' ', 'w', 'e', 'e', 'k', ' ', 'a', 'g', 'o']),
    (['l', 'a', 's', 't', ' ', 'y', 'e', 'a', 'r'], ['1', ' ', 'y', 'e', 'a', 'r', ' ', 'a', 'g', 'o']),
    (['n', 'e', 'x', 't', ' ', 'w', 'e', 'e', 'k'], ['i', 'n', ' ', '1', ' ', 'w', 'e', 'e', 'k']),
    (['n', 'e', 'x', 't', ' ', 'y', 'e', 'a', 'r'], ['i', 'n', ' ', '1', ' ', 'y', 'e', 'a', 'r']),
    (['t', 'h', 'i', 's', ' ', 'h', 'o', 'u', 'r'], ['0', ' ', 'h', 'o', 'u', 'r', ' ', 'a', 'g', 'o']),
    (['t', 'h', 'i', 's', ' ', 'w', 'e', 'e', 'k'], ['0', ' ', 'w', 'e', 'e', 'k', ' ', 'a', 'g', 'o']),
    (['t', 'h', 'i', 's', ' ', 'y', 'e', 'a', 'r'], ['0', ' ', 'y', 'e', 'a', 'r', ' ', 'a', 'g', 'o']),
    (['t', 'i', 'l', 'l', ' ', 'd', 'a', 't', 'e'], ['0', ' ', 'd', 'a', 'y', ' ', 'a', 'g', 'o']),
    (['y', 'e', 's', 't', 'e', 'r', 'd', 'a', 'y'], ['1', ' ', 'd', 'a', 'y', ' ', 'a', 'g', 'o']),
    (['t', 'o', 'm', 'o', 'r', 'r', 'o', 'w'], ['i', 'n', ' ', '1', ' ', 'd', 'a', 'y']),
    (['l', 'a', 's', 't', ' ', 'm', 'o'], ['1', ' ', 'm', 'o', 'n', 't', 'h', ' ', 'a', 'g', 'o']),
    (['l', 'a', 's', 't', ' ', 'w', 'k'], ['1', ' ', 'w', 'e', 'e', 'k', ' ', 'a', 'g', 'o']),
    (['l', 'a', 's', 't', ' ', 'y', 'r'], ['1', ' ', 'y', 'e', 'a', 'r', ' ', 'a', 'g', 'o']),
    (['n', 'e', 'x', 't', ' ', 'm', 'o'], ['i', 'n', ' ', '1', ' ', 'm', 'o', 'n', 't', 'h']),
    (['n', 'e', 'x', 't', ' ', 'w', 'k'], ['i', 'n', ' ', '1', ' ', 'w', 'e', 'e', 'k']),
    (['n', 'e', 'x', 't', ' ', 'y', 'r'], ['i', 'n', ' ', '1', ' ', 'y', 'e', 'a', 'r']),
    (['t', 'h', 'i', 's', ' ', 'm', 'o'], ['0', ' ', 'm', 'o', 'n', 't', 'h', ' ', 'a', 'g', 'o']),
    (['t', 'h', 'i', 's', ' ', 'w', 'k'], ['0', ' ', 'w', 'e', 'e', 'k', ' ', 'a', 'g', 'o']),
    (['t', 'h', 'i', 's', ' ', 'y', 'r'], ['0', ' ', 'y', 'e', 'a', 'r', ' ', 'a', 'g', 'o']),
    (['t', 'o', 'd', 'a', 'y'], ['0', ' ', 'd', 'a', 'y', ' ', 'a', 'g', 'o']),
    (['n', 'o', 'w'], ['0', ' ', 's', 'e', 'c', 'o', 'n', 'd', ' ', 'a', 'g', 'o'])]
  relativeRegexes :=
   [(.seqs [.grp 1 (.number), .lit [' ', 'd', 'e', 'c', 'a', 'd', 'e'], .opt (.lit ['s']), .lit [' ', 'a', 'g', 'o']], [.ref 1, .lit [' ', 'd', 'e', 'c', 'a', 'd', 'e', ' ', 'a', 'g', 'o']]),
    (.seqs [.grp 1 (.number), .lit [' ', 'm', 'i', 'n', 'u', 't', 'e', 's', ' ', 'a', 'g', 'o']], [.ref 1, .lit [' ', 'm', 'i', 'n', 'u', 't', 'e', ' ', 'a', 'g', 'o']]),
    (.seqs [.grp 1 (.number), .lit [' ', 's', 'e', 'c', 'o', 'n', 'd', 's', ' ', 'a', 'g', 'o']], [.ref 1, .lit [' ', 's', 'e', 'c', 'o', 'n', 'd', ' ', 'a', 'g', 'o']]),
    (.seqs [.lit ['i', 'n', ' '], .grp 1 (.number), .lit [' ', 'd', 'e', 'c', 'a', 'd', 'e'], .opt (.lit ['s'])], [.lit ['i', 'n', ' '], .ref 1, .lit [' ', 'd', 'e', 'c', 'a', 'd', 'e']]),
    (.seqs [.grp 1 (.number), .lit [' ', 'm', 'i', 'n', 'u', 't', 'e', ' ', 'a', 'g', 'o']], [.ref 1, .lit [' ', 'm', 'i', 'n', 'u', 't', 'e', ' ', 'a', 'g', 'o']]),
    (.seqs [.grp 1 (.number), .lit [' ', 'm', 'o', 'n', 't', 'h', 's', ' ', 'a', 'g', 'o']], [.ref 1, .lit [' ', 'm', 'o', 'n', 't', 'h', ' ', 'a', 'g', 'o']]),
    (.seqs [.grp 1 (.number), .lit [' ', 's', 'e', 'c', 'o', 'n', 'd', ' ', 'a', 'g', 'o']], [.ref 1, .lit [' ', 's', 'e', 'c', 'o', 'n', 'd', ' ', 'a', 'g', 'o']]),
    (.seqs [.lit ['i', 'n', ' '], .grp 1 (.number), .lit [' ', 'm', 'i', 'n', 'u', 't', 'e', 's']], [.lit ['i', 'n', ' '], .ref 1, .lit [' ', 'm', 'i', 'n', 'u', 't', 'e']]),
    (.seqs [.lit ['i', 'n', ' '], .grp 1 (.number), .lit [' ', 's', 'e', 'c', 'o', 'n', 'd', 's']], [.lit ['i', 'n', ' '], .ref 1, .lit [' ', 's', 'e', 'c', 'o', 'n', 'd']]),
    (.seqs [.grp 1 (.number), .lit [' ', 'h', 'o', 'u', 'r', 's', ' ', 'a', 'g', 'o']], [.ref 1, .lit [' ', 'h', 'o', 'u', 'r', ' ', 'a', 'g', 'o']]),
    (.seqs [.grp 1 (.number), .lit [' ', 'm', 'o', 'n', 't', 'h', ' ', 'a', 'g', 'o']], [.ref 1, .lit [' ', 'm', 'o', 'n', 't', 'h', ' ', 'a', 'g', 'o']]),
    (.seqs [.grp 1 (.number), .lit [' ', 'w', 'e', 'e', 'k', 's', ' ', 'a', 'g', 'o']], [.ref 1, .lit [' ', 'w', 'e', 'e', 'k', ' ', 'a', 'g', 'o']]),
    (.seqs [.grp 1 (.number), .lit [' ', 'y', 'e', 'a', 'r', 's', ' ', 'a', 'g', 'o']], [.ref 1, .lit [' ', 'y', 'e', 'a', 'r', ' ', 'a', 'g', 'o']]),
    (.seqs [.lit ['i', 'n', ' '], .grp 1 (.number), .lit [' ', 'm', 'i', 'n', 'u', 't', 'e']], [.lit ['i', 'n', ' '], .ref 1, .lit [' ', 'm', 'i', 'n', 'u', 't', 'e']]),
    (.seqs [.lit ['i', 'n', ' '], .grp 1 (.number), .lit [' ', 'm', 'o', 'n', 't', 'h', 's']], [.lit ['i', 'n', ' '], .ref 1, .lit [' ', 'm', 'o', 'n', 't', 'h']]),
    (.seqs [.lit ['i', 'n', ' '], .grp 1 (.number), .lit [' ', 's', 'e', 'c', 'o', 'n', 'd']], [.lit ['i', 'n', ' '], .ref 1, .lit [' ', 's', 'e', 'c', 'o', 'n', 'd']]),
    (.seqs [.grp 1 (.number), .lit [' ', 'd', 'a', 'y', 's', ' ', 'a', 'g', 'o']], [.ref 1, .lit [' ', 'd', 'a', 'y', ' ', 'a', 'g', 'o']]),
    (.seqs [.grp 1 (.number), .lit [' ', 'h', 'o', 'u', 'r', ' ', 'a', 'g', 'o']], [.ref 1, .lit [' ', 'h', 'o', 'u', 'r', ' ', 'a', 'g', 'o']]),
    (.seqs [.grp 1 (.number), .lit [' ', 'w', 'e', 'e', 'k', ' ', 'a', 'g', 'o']], [.ref 1, .lit [' ', 'w', 'e', 'e', 'k', ' ', 'a', 'g', 'o']]),
    (.seqs [.grp 1 (.number), .lit [' ', 'y', 'e', 'a', 'r', ' ', 'a', 'g', 'o']], [.ref 1, .lit [' ', 'y', 'e', 'a', 'r', ' ', 'a', 'g', 'o']]),
    (.seqs [.lit ['i', 'n', ' '], .grp 1 (.number), .lit [' ', 'h', 'o', 'u', 'r', 's']], [.lit ['i', 'n', ' '], .ref 1, .lit [' ', 'h', 'o', 'u', 'r']]),
    (.seqs [.lit ['i', 'n', ' '], .grp 1 (.number), .lit [' ', 'm', 'o', 'n', 't', 'h']], [.lit ['i', 'n', ' '], .ref 1, .lit [' ', 'm', 'o', 'n', 't', 'h']]),
    (.seqs [.lit ['i', 'n', ' '], .grp 1 (.number), .lit [' ', 'w', 'e', 'e', 'k', 's']], [.lit ['i', 'n', ' '], .ref 1, .lit [' ', 'w', 'e', 'e', 'k']]),
    (.seqs [.lit ['i', 'n', ' '], .grp 1 (.number), .lit [' ', 'y', 'e', 'a', 'r', 's']], [.lit ['i', 'n', ' '], .ref 1, .lit [' ', 'y', 'e', 'a', 'r']]),
    (.seqs [.grp 1 (.number), .lit [' ', 'd', 'a', 'y', ' ', 'a', 'g', 'o']], [.ref 1, .lit [' ', 'd', 'a', 'y', ' ', 'a', 'g', 'o']]),
    (.seqs [.grp 1 (.number), .lit [' ', 'm', 'i', 'n', ' ', 'a', 'g', 'o']], [.ref 1, .lit [' ', 'm', 'i', 'n', 'u', 't', 'e', ' ', 'a', 'g', 'o']]),
    (.seqs [.grp 1 (.number), .lit [' ', 's', 'e', 'c', ' ', 'a', 'g', 'o']], [.ref 1, .lit [' ', 's', 'e', 'c', 'o', 'n', 'd', ' ', 'a', 'g', 'o']]),
    (.seqs [.lit ['i', 'n', ' '], .grp 1 (.number), .lit [' ', 'd', 'a', 'y', 's']], [.lit ['i', 'n', ' '], .ref 1, .lit [' ', 'd', 'a', 'y']]),
    (.seqs [.lit ['i', 'n', ' '], .grp 1 (.number), .lit [' ', 'h', 'o', 'u', 'r']], [.lit ['i', 'n', ' '], .ref 1, .lit [' ', 'h', 'o', 'u', 'r']]),
    (.seqs [.lit ['i', 'n', ' '], .grp 1 (.number), .lit [' ', 'w', 'e', 'e', 'k']], [.lit ['i', 'n', ' '], .ref 1, .lit [' ', 'w', 'e', 'e', 'k']]),
    (.seqs [.lit ['i', 'n', ' '], .grp 1 (.number), .lit [' ', 'y', 'e', 'a', 'r']], [.lit ['i', 'n', ' '], .ref 1, .lit [' ', 'y', 'e', 'a', 'r']]),
    (.seqs [.grp 1 (.number), .lit [' ', 'h', 'r', ' ', 'a', 'g', 'o']], [.ref 1, .lit [' ', 'h', 'o', 'u', 'r', ' ', 'a', 'g', 'o']]),
    (.seqs [.grp 1 (.number), .lit [' ', 'm', 'o', ' ', 'a', 'g', 'o']], [.ref 1, .lit [' ', 'm', 'o', 'n', 't', 'h', ' ', 'a', 'g', 'o']]),
    (.seqs [.grp 1 (.number), .lit [' ', 'w', 'k', ' ', 'a', 'g', 'o']], [.ref 1, .lit [' ', 'w', 'e', 'e', 'k', ' ', 'a', 'g', 'o']]),
    (.seqs [.grp 1 (.number), .lit [' ', 'y', 'r', ' ', 'a', 'g', 'o']], [.ref 1, .lit [' ', 'y', 'e', 'a', 'r', ' ', 'a', 'g', 'o']]),
    (.seqs [.lit ['i', 'n', ' '], .grp 1 (.number), .lit [' ', 'd', 'a', 'y']], [.lit ['i', 'n', ' '], .ref 1, .lit [' ', 'd', 'a', 'y']]),
    (.seqs [.lit ['i', 'n', ' '], .grp 1 (.number), .lit [' ', 'm', 'i', 'n']], [.lit ['i', 'n', ' '], .ref 1, .lit [' ', 'm', 'i', 'n', 'u', 't', 'e']]),
    (.seqs [.lit ['i', 'n', ' '], .grp 1 (.number), .lit [' ', 's', 'e', 'c']], [.lit ['i', 'n', ' '], .ref 1, .lit [' ', 's', 'e', 'c', 'o', 'n', 'd']]),
    (.seqs [.lit ['i', 'n', ' '], .grp 1 (.number), .lit [' ', 'h', 'r']], [.lit ['i', 'n', ' '], .ref 1, .lit [' ', 'h', 'o', 'u', 'r']]),
    (.seqs [.lit ['i', 'n', ' '], .grp 1 (.number), .lit [' ', 'm', 'o']], [.lit ['i', 'n', ' '], .ref 1, .lit [' ', 'm', 'o', 'n', 't', 'h']]),
    (.seqs [.lit ['i', 'n', ' '], .grp 1 (.number), .lit [' ', 'w', 'k']], [.lit ['i', 'n', ' '], .ref 1, .lit [' ', 'w', 'e', 'e', 'k']]),
    (.seqs [.lit ['i', 'n', ' '], .grp 1 (.number), .lit [' ', 'y', 'r']], [.lit ['i', 'n', ' '], .ref 1, .lit [' ', 'y', 'e', 'a', 'r']])]
  rxCombined := some (.seqs [.grp 1 (.alts [.bos, .cls true [.letter, .mark, .digit], .lit ['_']]), .grp 2 (.alts [.seqs [.number, .lit [' ', 'd', 'e', 'c', 'a', 'd', 'e'], .opt (.lit ['s']), .lit [' ', 'a', 'g', 'o']], .seqs [.number, .lit [' ', 'm', 'i', 'n', 'u', 't', 'e', 's', ' ', 'a', 'g', 'o']], .seqs [.number, .lit [' ', 's', 'e', 'c', 'o', 'n', 'd', 's', ' ', 'a', 'g', 'o']], .seqs [.lit ['i', 'n', ' '], .number, .lit [' ', 'd', 'e', 'c', 'a', 'd', 'e'], .opt (.lit ['s'])], .seqs [.number, .lit [' ', 'm', 'i', 'n', 'u', 't', 'e', ' ', 'a', 'g', 'o']], .seqs [.number, .lit [' ', 'm', 'o', 'n', 't', 'h', 's', ' ', 'a', 'g', 'o']], .seqs [.number, .lit [' ', 's', 'e', 'c', 'o', 'n', 'd', ' ', 'a', 'g', 'o']], .seqs [.lit ['i', 'n', ' '], .number, .lit [' ', 'm', 'i', 'n', 'u', 't', 'e', 's']], .seqs [.lit ['i', 'n', ' '], .number, .lit [' ', 's', 'e', 'c', 'o', 'n', 'd', 's']], .seqs [.number, .lit [' ', 'h', 'o', 'u', 'r', 's', ' ', 'a', 'g', 'o']], .seqs [.number, .lit [' ', 'm', 'o', 'n', 't', 'h', ' ', 'a', 'g', 'o']], .seqs [.number, .lit [' ', 'w', 'e', 'e', 'k', 's', ' ', 'a', 'g', 'o']], .seqs [.number, .lit [' ', 'y', 'e', 'a', 'r', 's', ' ', 'a', 'g', 'o']], .seqs [.lit ['i', 'n', ' '], .number, .lit [' ', 'm', 'i', 'n', 'u', 't', 'e']], .seqs [.lit ['i', 'n', ' '], .number, .lit [' ', 'm', 'o', 'n', 't', 'h', 's']], .seqs [.lit ['i', 'n', ' '], .number, .lit [' ', 's', 'e', 'c', 'o', 'n', 'd']], .seqs [.number, .lit [' ', 'd', 'a', 'y', 's', ' ', 'a', 'g', 'o']], .seqs [.number, .lit [' ', 'h', 'o', 'u', 'r', ' ', 'a', 'g', 'o']], .seqs [.number, .lit [' ', 'w', 'e', 'e', 'k', ' ', 'a', 'g', 'o']], .seqs [.number, .lit [' ', 'y', 'e', 'a', 'r', ' ', 'a', 'g', 'o']], .seqs [.lit ['i', 'n', ' '], .number, .lit [' ', 'h', 'o', 'u', 'r', 's']], .seqs [.lit ['i', 'n', ' '], .number, .lit [' ', 'm', 'o', 'n', 't', 'h']], .seqs [.lit ['i', 'n', ' '], .number, .lit [' ', 'w', 'e', 'e', 'k', 's']], .seqs [.lit ['i', 'n', ' '], .number, .lit [' ', 'y', 'e', 'a', 'r', 's']], .seqs [.number, .lit [' ', 'd', 'a', 'y', ' ', 'a', 'g', 'o']], .seqs [.number, .lit [' ', 'm', 'i', 'n', ' ', 'a', 'g', 'o']], .seqs [.number, .lit [' ', 's', 'e', 'c', ' ', 'a', 'g', 'o']], .seqs [.lit ['i', 'n', ' '], .number, .lit [' ', 'd', 'a', 'y', 's']], .seqs [.lit ['i', 'n', ' '], .number, .lit [' ', 'h', 'o', 'u', 'r']], .seqs [.lit ['i', 'n', ' '], .number, .lit [' ', 'w', 'e', 'e', 'k']], .seqs [.lit ['i', 'n', ' '], .number, .lit [' ', 'y', 'e', 'a', 'r']], .seqs [.number, .lit [' ', 'h', 'r', ' ', 'a', 'g', 'o']], .seqs [.number, .lit [' ', 'm', 'o', ' ', 'a', 'g', 'o']], .seqs [.number, .lit [' ', 'w', 'k', ' ', 'a', 'g', 'o']], .seqs [.number, .lit [' ', 'y', 'r', ' ', 'a', 'g', 'o']], .seqs [.lit ['i', 'n', ' '], .number, .lit [' ', 'd', 'a', 'y']], .seqs [.lit ['i', 'n', ' '], .number, .lit [' ', 'm', 'i', 'n']], .seqs [.lit ['i', 'n', ' '], .number, .lit [' ', 's', 'e', 'c']], .seqs [.lit ['i', 'n', ' '], .number, .lit [' ', 'h', 'r']], .seqs [.lit ['i', 'n', ' '], .number, .lit [' ', 'm', 'o']], .seqs [.lit ['i', 'n', ' '], .number, .lit [' ', 'w', 'k']], .seqs [.lit ['i', 'n', ' '], .number, .lit [' ', 'y', 'r']]]), .grp 3 (.alts [.eos, .cls true [.letter, .mark, .digit], .lit ['_']])], 3)
  rxExact := some (.seqs [.bos, .grp 1 (.alts [.seqs [.number, .lit [' ', 'd', 'e', 'c', 'a', 'd', 'e'], .opt (.lit ['s']), .lit [' ', 'a', 'g', 'o']], .seqs [.number, .lit [' ', 'm', 'i', 'n', 'u', 't', 'e', 's', ' ', 'a', 'g', 'o']], .seqs [.number, .lit [' ', 's', 'e', 'c', 'o', 'n', 'd', 's', ' ', 'a', 'g', 'o']], .seqs [.lit ['i', 'n', ' '], .number, .lit [' ', 'd', 'e', 'c', 'a', 'd', 'e'], .opt (.lit ['s'])], .seqs [.number, .lit [' ', 'm', 'i', 'n', 'u', 't', 'e', ' ', 'a', 'g', 'o']], .seqs [.number, .lit [' ', 'm', 'o', 'n', 't', 'h', 's', ' ', 'a', 'g', 'o']], .seqs [.number, .lit [' ', 's', 'e', 'c', 'o', 'n', 'd', ' ', 'a', 'g', 'o']], .seqs [.lit ['i', 'n', ' '], .number, .lit [' ', 'm', 'i', 'n', 'u', 't', 'e', 's']], .seqs [.lit ['i', 'n', ' '], .number, .lit [' ', 's', 'e', 'c', 'o', 'n', 'd', 's']], .seqs [.number, .lit [' ', 'h', 'o', 'u', 'r', 's', ' ', 'a', 'g', 'o']], .seqs [.number, .lit [' ', 'm', 'o', 'n', 't', 'h', ' ', 'a', 'g', 'o']], .seqs [.number, .lit [' ', 'w', 'e', 'e', 'k', 's', ' ', 'a', 'g', 'o']], .seqs [.number, .lit [' ', 'y', 'e', 'a', 'r', 's', ' ', 'a', 'g', 'o']], .seqs [.lit ['i', 'n', ' '], .number, .lit [' ', 'm', 'i', 'n', 'u', 't', 'e']], .seqs [.lit ['i', 'n', ' '], .number, .lit [' ', 'm', 'o', 'n', 't', 'h', 's']], .seqs [.lit ['i', 'n', ' '], .number, .lit [' ', 's', 'e', 'c', 'o', 'n', 'd']], .seqs [.number, .lit [' ', 'd', 'a', 'y', 's', ' ', 'a', 'g', 'o']], .seqs [.number, .lit [' ', 'h', 'o', 'u', 'r', ' ', 'a', 'g', 'o']], .seqs [.number, .lit [' ', 'w', 'e', 'e', 'k', ' ', 'a', 'g', 'o']], .seqs [.number, .lit [' ', 'y', 'e', 'a', 'r', ' ', 'a', 'g', 'o']], .seqs [.lit ['i', 'n', ' '], .number, .lit [' ', 'h', 'o', 'u', 'r', 's']], .seqs [.lit ['i', 'n', ' '], .number, .lit [' ', 'm', 'o', 'n', 't', 'h']], .seqs [.lit ['i', 'n', ' '], .number, .lit [' ', 'w', 'e', 'e', 'k', 's']], .seqs [.lit ['i', 'n', ' '], .number, .lit [' ', 'y', 'e', 'a', 'r', 's']], .seqs [.number, .lit [' ', 'd', 'a', 'y', ' ', 'a', 'g', 'o']], .seqs [.number, .lit [' ', 'm', 'i', 'n', ' ', 'a', 'g', 'o']], .seqs [.number, .lit [' ', 's', 'e', 'c', ' ', 'a', 'g', 'o']], .seqs [.lit ['i', 'n', ' '], .number, .lit [' ', 'd', 'a', 'y', 's']], .seqs [.lit ['i', 'n', ' '], .number, .lit [' ', 'h', 'o', 'u', 'r']], .seqs [.lit ['i', 'n', ' '], .number, .lit [' ', 'w', 'e', 'e', 'k']], .seqs [.lit ['i', 'n', ' '], .number, .lit [' ', 'y', 'e', 'a', 'r']], .seqs [.number, .lit [' ', 'h', 'r', ' ', 'a', 'g', 'o']], .seqs [.number, .lit [' ', 'm', 'o', ' ', 'a', 'g', 'o']], .seqs [.number, .lit [' ', 'w', 'k', ' ', 'a', 'g', 'o']], .seqs [.number, .lit [' ', 'y', 'r', ' ', 'a', 'g', 'o']], .seqs [.lit ['i', 'n', ' '], .number, .lit [' ', 'd', 'a', 'y']], .seqs [.lit ['i', 'n', ' '], .number, .lit [' ', 'm', 'i', 'n']], .seqs [.lit ['i', 'n', ' '], .number, .lit [' ', 's', 'e', 'c']], .seqs [.lit ['i', 'n', ' '], .number, .lit [' ', 'h', 'r']], .seqs [.lit ['i', 'n', ' '], .number, .lit [' ', 'm', 'o']], .seqs [.lit ['i', 'n', ' '], .number, .lit [' ', 'w', 'k']], .seqs [.lit ['i', 'n', ' '], .number, .lit [' ', 'y', 'r']]]), .eos])
  knownWords :=
   [['d', 'a', 'y', ' ', 'b', 'e', 'f', 'o', 'r', 'e', ' ', 'y', 'e', 's', 't', 'e', 'r', 'd', 'a', 'y'],
    ['d', 'a', 'y', ' ', 'a', 'f', 't', 'e', 'r', ' ', 't', 'o', 'm', 'o', 'r', 'r', 'o', 'w'],
    ['l', 'a', 's', 't', ' ', 'd', 'e', 'c', 'a', 'd', 'e'],
    ['n', 'e', 'x', 't', ' ', 'd', 'e', 'c', 'a', 'd', 'e'],
    ['t', 'h', 'i', 's', ' ', 'd', 'e', 'c', 'a', 'd', 'e'],
    ['t', 'h', 'i', 's', ' ', 'm', 'i', 'n', 'u', 't', 'e'],
    ['l', 'a', 's', 't', ' ', 'm', 'o', 'n', 't', 'h'],
    ['n', 'e', 'x', 't', ' ', 'm', 'o', 'n', 't', 'h'],
    ['t', 'h', 'i', 's', ' ', 'm', 'o', 'n', 't', 'h'],
    ['l', 'a', 's', 't', ' ', 'w', 'e', 'e', 'k'],
    ['l', 'a', 's', 't', ' ', 'y', 'e', 'a', 'r'],
    ['n', 'e', 'x', 't', ' ', 'w', 'e', 'e', 'k'],
    ['n', 'e', 'x', 't', ' ', 'y', 'e', 'a', 'r'],
    ['s', 'e', 'p', 't', 'e', 'm', 'b', 'e', 'r'],
    ['t', 'h', 'i', 's', ' ', 'h', 'o', 'u', 'r'],
    ['t', 'h', 'i', 's', ' ', 'w', 'e', 'e', 'k'],
    ['t', 'h', 'i', 's', ' ', 'y', 'e', 'a', 'r'],
    ['t', 'i', 'l', 'l', ' ', 'd', 'a', 't', 'e'],
    ['w', 'e', 'd', 'n', 'e', 's', 'd', 'a', 'y'],
    ['y', 'e', 's', 't', 'e', 'r', 'd', 'a', 'y'],
    ['d', 'e', 'c', 'e', 'm', 'b', 'e', 'r'],
    ['f', 'e', 'b', 'r', 'u', 'a', 'r', 'y'],
    ['f', 'r', 'o', 'm', ' ', 'n', 'o', 'w'],
    ['n', 'o', 'v', 'e', 'm', 'b', 'e', 'r'],
    ['s', 'a', 't', 'u', 'r', 'd', 'a', 'y'],
    ['t', 'h', 'u', 'r', 's', 'd', 'a', 'y'],
    ['t', 'o', 'm', 'o', 'r', 'r', 'o', 'w'],
    ['d', 'e', 'c', 'a', 'd', 'e', 's'],
    ['j', 'a', 'n', 'u', 'a', 'r', 'y'],
    ['l', 'a', 's', 't', ' ', 'm', 'o'],
    ['l', 'a', 's', 't', ' ', 'w', 'k'],
    ['l', 'a', 's', 't', ' ', 'y', 'r'],
    ['m', 'i', 'n', 'u', 't', 'e', 's'],
    ['n', 'e', 'x', 't', ' ', 'm', 'o'],
    ['n', 'e', 'x', 't', ' ', 'w', 'k'],
    ['n', 'e', 'x', 't', ' ', 'y', 'r'],
    ['o', 'c', 't', 'o', 'b', 'e', 'r'],
    ['s', 'e', 'c', 'o', 'n', 'd', 's'],
    ['t', 'h', 'i', 's', ' ', 'm', 'o'],
    ['t', 'h', 'i', 's', ' ', 'w', 'k'],
    ['t', 'h', 'i', 's', ' ', 'y', 'r'],
    ['t', 'u', 'e', 's', 'd', 'a', 'y'],
    ['a', 'u', 'g', 'u', 's', 't'],
    ['b', 'e', 'f', 'o', 'r', 'e'],
    ['d', 'e', 'c', 'a', 'd', 'e'],
    ['f', 'r', 'i', 'd', 'a', 'y'],
    ['m', 'i', 'n', 'u', 't', 'e'],
    ['m', 'o', 'n', 'd', 'a', 'y'],
    ['m', 'o', 'n', 't', 'h', 's'],
    ['s', 'e', 'c', 'o', 'n', 'd'],
    ['s', 'u', 'n', 'd', 'a', 'y'],
    ['a', 'b', 'o', 'u', 't'],
    ['a', 'f', 't', 'e', 'r'],
    ['a', 'p', 'r', 'i', 'l'],
    ['h', 'o', 'u', 'r', 's'],
    ['m', 'a', 'r', 'c', 'h'],
    ['m', 'o', 'n', 't', 'h'],
    ['t', 'o', 'd', 'a', 'y'],
    ['w', 'e', 'e', 'k', 's'],
    ['y', 'e', 'a', 'r', 's'],
    ['d', 'a', 'y', 's'],
    ['h', 'o', 'u', 'r'],
    ['j', 'u', 'l', 'y'],
    ['j', 'u', 'n', 'e'],
    ['j', 'u', 's', 't'],
    ['m', 'i', 'n', 's'],
    ['s', 'e', 'c', 's'],
    ['s', 'e', 'p', 't'],
    ['t', 'u', 'e', 's'],
    ['w', 'e', 'e', 'k'],
    ['y', 'e', 'a', 'r'],
    ['a', 'g', 'o'],
    ['a', 'n', 'd'],
    ['a', 'p', 'r'],
    ['a', 'u', 'g'],
    ['d', 'a', 'y'],
    ['d', 'e', 'c'],
    ['f', 'e', 'b'],
    ['f', 'r', 'i'],
    ['g', 'm', 't'],
    ['h', 'r', 's'],
    ['j', 'a', 'n'],
    ['j', 'u', 'l'],
    ['j', 'u', 'n'],
    ['m', 'a', 'r'],
    ['m', 'a', 'y'],
    ['m', 'i', 'n'],
    ['m', 'o', 'n'],
    ['n', 'o', 'v'],
    ['n', 'o', 'w'],
    ['o', 'c', 't'],
    ['s', 'a', 't'],
    ['s', 'e', 'c'],
    ['s', 'e', 'p'],
    ['s', 'u', 'n'],
    ['t', 'h', 'e'],
    ['t', 'h', 'u'],
    ['t', 'u', 'e'],
    ['u', 't', 'c'],
    ['w', 'e', 'd'],
    ['a', 'd'],
    ['a', 'm'],
    ['a', 't'],
    ['b', 'y'],
    ['h', 'r'],
    ['i', 'n'],
    ['m', 'o'],
    ['n', 'd'],
    ['o', 'f'],
    ['o', 'n'],
    ['p', 'm'],
    ['r', 'd'],
    ['s', 't'],
    ['t', 'h'],
    ['w', 'k'],
    ['y', 'r'],
    [' '],
    ['\''],
    ['+'],
    [','],
    ['-'],
    ['.'],
    ['/'],
    [':'],
    [';'],
    ['@'],
    ['['],
    [']'],
    ['d'],
    ['h'],
    ['m'],
    ['s'],
    ['y'],
    ['z'],
    ['|']]

end Verif.Data
