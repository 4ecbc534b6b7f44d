import Verif.Model.Pattern
/-! GENERATED by tools/gen_langs.py from /repo/internal/data/fr.go; do not edit. -/
set_option autoImplicit false
set_option maxRecDepth 100000
namespace Verif.Data
open Verif.Model

/-- internal/data/fr.go: `fr_Locale`. -/
def frData : LangData where
  name := ['f', 'r']
  splitterGroup := 1
  simplifications :=
   [(.seqs [.grp 1 (.alts [.bos, .noWord]), .lit ['d', '\'', 'u', 'n', 'e'], .grp 2 (.alts [.eos, .noWord])], [.ref 1, .lit ['1'], .ref 2]),
    (.seqs [.grp 1 (.alts [.bos, .noWord]), .lit ['d', '\'', 'u', 'n'], .grp 2 (.alts [.eos, .noWord])], [.ref 1, .lit ['1'], .ref 2]),
    (.seqs [.grp 1 (.alts [.bos, .noWord]), .lit ['u', 'n', 'e'], .grp 2 (.alts [.eos, .noWord])], [.ref 1, .lit ['1'], .ref 2]),
    (.seqs [.grp 1 (.alts [.bos, .noWord]), .lit ['u', 'n'], .grp 2 (.alts [.eos, .noWord])], [.ref 1, .lit ['1'], .ref 2]),
    (.seqs [.grp 1 (.alts [.bos, .noWord]), .grp 2 (.number), .plus (.cls false [.space]), .lit ['h'], .plus (.cls false [.space]), .grp 3 (.number), .plus (.cls false [.space]), .lit ['m', 'i', 'n'], .grp 4 (.alts [.eos, .noWord])], [.ref 1, .ref 2, .lit ['h'], .ref 3, .lit ['m'], .ref 4]),
    (.seqs [.grp 1 (.alts [.bos, .noWord]), .grp 2 (.number), .lit ['h'], .grp 3 (.number), .opt (.lit ['m']), .grp 4 (.alts [.eos, .noWord])], [.ref 1, .ref 2, .lit [':'], .ref 3, .ref 4]),
    (.seqs [.grp 1 (.alts [.bos, .noWord]), .lit ['m', 'o', 'i', 'n', 's'], .cls false [.space], .opt (.seqs [.lit ['d', 'e'], .cls false [.space]]), .grp 2 (.number), .opt (.cls false [.space]), .grp 3 (.alts [.lit ['m', 'i', 'n', 'u', 't', 'e'], .lit ['s', 'e', 'c', 'o', 'n', 'd', 'e'], .lit ['h', 'e', 'u', 'r', 'e']]), .grp 4 (.alts [.eos, .noWord])], [.ref 1, .ref 2, .lit [' '], .ref 3, .ref 4]),
    (.seqs [.grp 1 (.alts [.bos, .noWord]), .lit ['m', 'o', 'i', 'n', 's'], .cls false [.space], .opt (.seqs [.lit ['d', 'e'], .cls false [.space]]), .grp 2 (.number), .opt (.cls false [.space]), .lit ['s'], .grp 3 (.alts [.eos, .noWord])], [.ref 1, .ref 2, .lit [' ', 's', 'e', 'c', 'o', 'n', 'd', 'e'], .ref 3]),
    (.seqs [.grp 1 (.alts [.bos, .noWord]), .lit ['m', 'o', 'i', 'n', 's'], .cls false [.space], .opt (.seqs [.lit ['d', 'e'], .cls false [.space]]), .grp 2 (.number), .opt (.cls false [.space]), .lit ['m'], .grp 3 (.alts [.eos, .noWord])], [.ref 1, .ref 2, .lit [' ', 'm', 'i', 'n', 'u', 't', 'e'], .ref 3]),
    (.seqs [.grp 1 (.alts [.bos, .noWord]), .lit ['m', 'o', 'i', 'n', 's'], .cls false [.space], .opt (.seqs [.lit ['d', 'e'], .cls false [.space]]), .grp 2 (.number), .opt (.cls false [.space]), .lit ['h'], .grp 3 (.alts [.eos, .noWord])], [.ref 1, .ref 2, .lit [' ', 'h', 'e', 'u', 'r', 'e'], .ref 3]),
    (.seqs [.grp 1 (.alts [.bos, .noWord]), .lit ['d', 'e', 'u', 'x'], .grp 2 (.alts [.eos, .noWord])], [.ref 1, .lit ['2'], .ref 2]),
    (.seqs [.grp 1 (.alts [.bos, .noWord]), .lit ['t', 'r', 'o', 'i', 's'], .grp 2 (.alts [.eos, .noWord])], [.ref 1, .lit ['3'], .ref 2]),
    (.seqs [.grp 1 (.alts [.bos, .noWord]), .lit ['q', 'u', 'a', 't', 'r', 'e'], .grp 2 (.alts [.eos, .noWord])], [.ref 1, .lit ['4'], .ref 2]),
    (.seqs [.grp 1 (.alts [.bos, .noWord]), .lit ['c', 'i', 'n', 'q'], .grp 2 (.alts [.eos, .noWord])], [.ref 1, .lit ['5'], .ref 2]),
    (.seqs [.grp 1 (.alts [.bos, .noWord]), .lit ['s', 'i', 'x'], .grp 2 (.alts [.eos, .noWord])], [.ref 1, .lit ['6'], .ref 2]),
    (.seqs [.grp 1 (.alts [.bos, .noWord]), .lit ['s', 'e', 'p', 't'], .grp 2 (.alts [.eos, .noWord])], [.ref 1, .lit ['7'], .ref 2]),
    (.seqs [.grp 1 (.alts [.bos, .noWord]), .lit ['h', 'u', 'i', 't'], .grp 2 (.alts [.eos, .noWord])], [.ref 1, .lit ['8'], .ref 2]),
    (.seqs [.grp 1 (.alts [.bos, .noWord]), .lit ['n', 'e', 'u', 'f'], .grp 2 (.alts [.eos, .noWord])], [.ref 1, .lit ['9'], .ref 2]),
    (.seqs [.grp 1 (.alts [.bos, .noWord]), .lit ['d', 'i', 'x'], .grp 2 (.alts [.eos, .noWord])], [.ref 1, .lit ['1', '0'], .ref 2]),
    (.seqs [.grp 1 (.alts [.bos, .noWord]), .lit ['o', 'n', 'z', 'e'], .grp 2 (.alts [.eos, .noWord])], [.ref 1, .lit ['1', '1'], .ref 2]),
    (.seqs [.grp 1 (.alts [.bos, .noWord]), .lit ['d', 'o', 'u', 'z', 'e'], .grp 2 (.alts [.eos, .noWord])], [.ref 1, .lit ['1', '2'], .ref 2])]
  translations :=
   [(['s', 'e', 'p', 't', 'e', 'm', 'b', 'r', 'e'], [['s', 'e', 'p', 't', 'e', 'm', 'b', 'e', 'r']]),
    (['d', 'e', 'c', 'e', 'm', 'b', 'r', 'e'], [['d', 'e', 'c', 'e', 'm', 'b', 'e', 'r']]),
    (['d', 'i', 'm', 'a', 'n', 'c', 'h', 'e'], [['s', 'u', 'n', 'd', 'a', 'y']]),
    (['m', 'e', 'r', 'c', 'r', 'e', 'd', 'i'], [['w', 'e', 'd', 'n', 'e', 's', 'd', 'a', 'y']]),
    (['n', 'o', 'v', 'e', 'm', 'b', 'r', 'e'], [['n', 'o', 'v', 'e', 'm', 'b', 'e', 'r']]),
    (['s', 'e', 'c', 'o', 'n', 'd', 'e', 's'], [['s', 'e', 'c', 'o', 'n', 'd']]),
    (['s', 'e', 'm', 'a', 'i', 'n', 'e', 's'], [['w', 'e', 'e', 'k']]),
    (['v', 'e', 'n', 'd', 'r', 'e', 'd', 'i'], [['f', 'r', 'i', 'd', 'a', 'y']]),
    (['e', 'n', 'v', 'i', 'r', 'o', 'n'], [[]]),
    (['f', 'e', 'v', 'r', 'i', 'e', 'r'], [['f', 'e', 'b', 'r', 'u', 'a', 'r', 'y']]),
    (['j', 'a', 'n', 'v', 'i', 'e', 'r'], [['j', 'a', 'n', 'u', 'a', 'r', 'y']]),
    (['j', 'u', 'i', 'l', 'l', 'e', 't'], [['j', 'u', 'l', 'y']]),
    (['m', 'i', 'n', 'u', 't', 'e', 's'], [['m', 'i', 'n', 'u', 't', 'e']]),
    (['o', 'c', 't', 'o', 'b', 'r', 'e'], [['o', 'c', 't', 'o', 'b', 'e', 'r']]),
    (['s', 'e', 'c', 'o', 'n', 'd', 'e'], [['s', 'e', 'c', 'o', 'n', 'd']]),
    (['s', 'e', 'm', 'a', 'i', 'n', 'e'], [['w', 'e', 'e', 'k']]),
    (['a', 'n', 'n', 'e', 'e', 's'], [['y', 'e', 'a', 'r']]),
    (['h', 'e', 'u', 'r', 'e', 's'], [['h', 'o', 'u', 'r']]),
    (['i', 'l', ' ', 'y', ' ', 'a'], [['a', 'g', 'o']]),
    (['m', 'i', 'n', 'u', 't', 'e'], [['m', 'i', 'n', 'u', 't', 'e']]),
    (['s', 'a', 'm', 'e', 'd', 'i'], [['s', 'a', 't', 'u', 'r', 'd', 'a', 'y']]),
    (['a', 'n', 'n', 'e', 'e'], [['y', 'e', 'a', 'r']]),
    (['a', 'p', 'r', 'e', 's'], [['i', 'n']]),
    (['a', 'v', 'r', 'i', 'l'], [['a', 'p', 'r', 'i', 'l']]),
    (['h', 'e', 'u', 'r', 'e'], [['h', 'o', 'u', 'r']]),
    (['i', 'l', ' ', 'y', 'a'], [['a', 'g', 'o']]),
    (['j', 'e', 'u', 'd', 'i'], [['t', 'h', 'u', 'r', 's', 'd', 'a', 'y']]),
    (['j', 'o', 'u', 'r', 's'], [['d', 'a', 'y']]),
    (['l', 'u', 'n', 'd', 'i'], [['m', 'o', 'n', 'd', 'a', 'y']]),
    (['m', 'a', 'r', 'd', 'i'], [['t', 'u', 'e', 's', 'd', 'a', 'y']]),
    (['a', 'o', 'u', 't'], [['a', 'u', 'g', 'u', 's', 't']]),
    (['d', 'a', 'n', 's'], [['i', 'n']]),
    (['f', 'e', 'v', 'r'], [['f', 'e', 'b', 'r', 'u', 'a', 'r', 'y']]),
    (['j', 'a', 'n', 'v'], [['j', 'a', 'n', 'u', 'a', 'r', 'y']]),
    (['j', 'o', 'u', 'r'], [['d', 'a', 'y']]),
    (['j', 'u', 'i', 'l'], [['j', 'u', 'l', 'y']]),
    (['j', 'u', 'i', 'n'], [['j', 'u', 'n', 'e']]),
    (['m', 'a', 'r', 's'], [['m', 'a', 'r', 'c', 'h']]),
    (['m', 'o', 'i', 's'], [['m', 'o', 'n', 't', 'h']]),
    (['s', 'e', 'p', 't'], [['s', 'e', 'p', 't', 'e', 'm', 'b', 'e', 'r']]),
    (['a', 'n', 's'], [['y', 'e', 'a', 'r']]),
    (['a', 'o', 'u'], [['a', 'u', 'g', 'u', 's', 't']]),
    (['a', 'v', 'r'], [['a', 'p', 'r', 'i', 'l']]),
    (['d', 'e', 'c'], [['d', 'e', 'c', 'e', 'm', 'b', 'e', 'r']]),
    (['d', 'i', 'm'], [['s', 'u', 'n', 'd', 'a', 'y']]),
    (['f', 'e', 'v'], [['f', 'e', 'b', 'r', 'u', 'a', 'r', 'y']]),
    (['g', 'm', 't'], [['g', 'm', 't']]),
    (['j', 'a', 'n'], [['j', 'a', 'n', 'u', 'a', 'r', 'y']]),
    (['j', 'e', 'u'], [['t', 'h', 'u', 'r', 's', 'd', 'a', 'y']]),
    (['j', 'u', 'l'], [['j', 'u', 'l', 'y']]),
    (['j', 'u', 'n'], [['j', 'u', 'n', 'e']]),
    (['l', 'u', 'n'], [['m', 'o', 'n', 'd', 'a', 'y']]),
    (['m', 'a', 'i'], [['m', 'a', 'y']]),
    (['m', 'a', 'r'], [['t', 'u', 'e', 's', 'd', 'a', 'y']]),
    (['m', 'e', 'r'], [['w', 'e', 'd', 'n', 'e', 's', 'd', 'a', 'y']]),
    (['m', 'i', 'n'], [['m', 'i', 'n', 'u', 't', 'e']]),
    (['n', 'o', 'v'], [['n', 'o', 'v', 'e', 'm', 'b', 'e', 'r']]),
    (['o', 'c', 't'], [['o', 'c', 't', 'o', 'b', 'e', 'r']]),
    (['s', 'a', 'm'], [['s', 'a', 't', 'u', 'r', 'd', 'a', 'y']]),
    (['s', 'e', 'm'], [['w', 'e', 'e', 'k']]),
    (['s', 'e', 'p'], [['s', 'e', 'p', 't', 'e', 'm', 'b', 'e', 'r']]),
    (['u', 't', 'c'], [['u', 't', 'c']]),
    (['v', 'e', 'n'], [['f', 'r', 'i', 'd', 'a', 'y']]),
    (['a', 'm'], [['a', 'm']]),
    (['a', 'n'], [['y', 'e', 'a', 'r']]),
    (['d', 'i'], [['s', 'u', 'n', 'd', 'a', 'y']]),
    (['e', 'n'], [['i', 'n']]),
    (['e', 'r'], [[]]),
    (['e', 't'], [[]]),
    (['j', 'e'], [['t', 'h', 'u', 'r', 's', 'd', 'a', 'y']]),
    (['l', 'e'], [[]]),
    (['l', 'u'], [['m', 'o', 'n', 'd', 'a', 'y']]),
    (['m', 'a'], [['t', 'u', 'e', 's', 'd', 'a', 'y']]),
    (['m', 'e'], [['w', 'e', 'd', 'n', 'e', 's', 'd', 'a', 'y']]),
    (['p', 'm'], [['p', 'm']]),
    (['s', 'a'], [['s', 'a', 't', 'u', 'r', 'd', 'a', 'y']]),
    (['v', 'e'], [['f', 'r', 'i', 'd', 'a', 'y']]),
    ([' '], [[' ']]),
    (['\''], [[]]),
    (['+'], [['+']]),
    ([','], [[]]),
    (['-'], [['-']]),
    (['.'], [['.']]),
    (['/'], [['/']]),
    ([':'], [[':']]),
    ([';'], [[]]),
    (['@'], [[]]),
    (['['], [[]]),
    ([']'], [[]]),
    (['a'], [[]]),
    (['h'], [['h', 'o', 'u', 'r']]),
    (['j'], [['d', 'a', 'y']]),
    (['m'], [['m', 'o', 'n', 't', 'h']]),
    (['s'], [['s', 'e', 'c', 'o', 'n', 'd']]),
    (['z'], [['z']]),
    (['|'], [[]])]
  relativeType :=
   [(['l', 'a', ' ', 's', 'e', 'm', 'a', 'i', 'n', 'e', ' ', 'p', 'r', 'o', 'c', 'h', 'a', 'i', 'n', 'e'], ['i', 'n', ' ', '1', ' ', 'w', 'e', 'e', 'k']),
    (['l', 'a', ' ', 's', 'e', 'm', 'a', 'i', 'n', 'e', ' ', 'd', 'e', 'r', 'n', 'i', 'e', 'r', 'e'], ['1', ' ', 'w', 'e', 'e', 'k', ' ', 'a', 'g', 'o']),
    (['l', '\'', 'a', 'n', 'n', 'e', 'e', ' ', 'p', 'r', 'o', 'c', 'h', 'a', 'i', 'n', 'e'], ['i', 'n', ' ', '1', ' ', 'y', 'e', 'a', 'r']),
    (['l', '\'', 'a', 'n', 'n', 'e', 'e', ' ', 'd', 'e', 'r', 'n', 'i', 'e', 'r', 'e'], ['1', ' ', 'y', 'e', 'a', 'r', ' ', 'a', 'g', 'o']),
    (['l', 'e', ' ', 'm', 'o', 'i', 's', ' ', 'p', 'r', 'o', 'c', 'h', 'a', 'i', 'n'], ['i', 'n', ' ', '1', ' ', 'm', 'o', 'n', 't', 'h']),
    (['c', 'e', 't', 't', 'e', ' ', 'm', 'i', 'n', 'u', 't', 'e', '-', 'c', 'i'], ['0', ' ', 'm', 'i', 'n', 'u', 't', 'e', ' ', 'a', 'g', 'o']),
    (['l', 'e', ' ', 'm', 'o', 'i', 's', ' ', 'd', 'e', 'r', 'n', 'i', 'e', 'r'], ['1', ' ', 'm', 'o', 'n', 't', 'h', ' ', 'a', 'g', 'o']),
    (['c', 'e', 't', 't', 'e', ' ', 'h', 'e', 'u', 'r', 'e', '-', 'c', 'i'], ['0', ' ', 'h', 'o', 'u', 'r', ' ', 'a', 'g', 'o']),
    (['c', 'e', 't', 't', 'e', ' ', 's', 'e', 'm', 'a', 'i', 'n', 'e'], ['0', ' ', 'w', 'e', 'e', 'k', ' ', 'a', 'g', 'o']),
    (['a', 'p', 'r', 'e', 's', '-', 'd', 'e', 'm', 'a', 'i', 'n'], ['i', 'n', ' ', '2', ' ', 'd', 'a', 'y']),
    (['a', 'u', 'j', 'o', 'u', 'r', 'd', '\'', 'h', 'u', 'i'], ['0', ' ', 'd', 'a', 'y', ' ', 'a', 'g', 'o']),
    (['c', 'e', 't', 't', 'e', ' ', 'a', 'n', 'n', 'e', 'e'], ['0', ' ', 'y', 'e', 'a', 'r', ' ', 'a', 'g', 'o']),
    (['a', 'v', 'a', 'n', 't', '-', 'h', 'i', 'e', 'r'], ['2', ' ', 'd', 'a', 'y', ' ', 'a', 'g', 'o']),
    (['c', 'e', ' ', 'm', 'o', 'i', 's', '-', 'c', 'i'], ['0', ' ', 'm', 'o', 'n', 't', 'h', ' ', 'a', 'g', 'o']),
    (['m', 'a', 'i', 'n', 't', 'e', 'n', 'a', 'n', 't'], ['0', ' ', 's', 'e', 'c', 'o', 'n', 'd', ' ', 'a', 'g', 'o']),
    (['d', 'e', 'm', 'a', 'i', 'n'], ['i', 'n', ' ', '1', ' ', 'd', 'a', 'y']),
    (['h', 'i', 'e', 'r'], ['1', ' ', 'd', 'a', 'y', ' ', 'a', 'g', 'o'])]
  relativeRegexes :=
   [(.seqs [.lit ['i', 'l', ' ', 'y', ' ', 'a', ' '], .grp 1 (.number), .lit [' ', 's', 'e', 'c', 'o', 'n', 'd', 'e', 's']], [.ref 1, .lit [' ', 's', 'e', 'c', 'o', 'n', 'd', ' ', 'a', 'g', 'o']]),
    (.seqs [.lit ['i', 'l', ' ', 'y', ' ', 'a', ' '], .grp 1 (.number), .lit [' ', 's', 'e', 'm', 'a', 'i', 'n', 'e', 's']], [.ref 1, .lit [' ', 'w', 'e', 'e', 'k', ' ', 'a', 'g', 'o']]),
    (.seqs [.lit ['i', 'l', ' ', 'y', ' ', 'a', ' '], .grp 1 (.number), .lit [' ', 'm', 'i', 'n', 'u', 't', 'e', 's']], [.ref 1, .lit [' ', 'm', 'i', 'n', 'u', 't', 'e', ' ', 'a', 'g', 'o']]),
    (.seqs [.lit ['i', 'l', ' ', 'y', ' ', 'a', ' '], .grp 1 (.number), .lit [' ', 's', 'e', 'c', 'o', 'n', 'd', 'e']], [.ref 1, .lit [' ', 's', 'e', 'c', 'o', 'n', 'd', ' ', 'a', 'g', 'o']]),
    (.seqs [.lit ['i', 'l', ' ', 'y', ' ', 'a', ' '], .grp 1 (.number), .lit [' ', 's', 'e', 'm', 'a', 'i', 'n', 'e']], [.ref 1, .lit [' ', 'w', 'e', 'e', 'k', ' ', 'a', 'g', 'o']]),
    (.seqs [.lit ['d', 'a', 'n', 's', ' '], .grp 1 (.number), .lit [' ', 's', 'e', 'c', 'o', 'n', 'd', 'e', 's']], [.lit ['i', 'n', ' '], .ref 1, .lit [' ', 's', 'e', 'c', 'o', 'n', 'd']]),
    (.seqs [.lit ['d', 'a', 'n', 's', ' '], .grp 1 (.number), .lit [' ', 's', 'e', 'm', 'a', 'i', 'n', 'e', 's']], [.lit ['i', 'n', ' '], .ref 1, .lit [' ', 'w', 'e', 'e', 'k']]),
    (.seqs [.lit ['i', 'l', ' ', 'y', ' ', 'a', ' '], .grp 1 (.number), .lit [' ', 'h', 'e', 'u', 'r', 'e', 's']], [.ref 1, .lit [' ', 'h', 'o', 'u', 'r', ' ', 'a', 'g', 'o']]),
    (.seqs [.lit ['i', 'l', ' ', 'y', ' ', 'a', ' '], .grp 1 (.number), .lit [' ', 'm', 'i', 'n', 'u', 't', 'e']], [.ref 1, .lit [' ', 'm', 'i', 'n', 'u', 't', 'e', ' ', 'a', 'g', 'o']]),
    (.seqs [.lit ['d', 'a', 'n', 's', ' '], .grp 1 (.number), .lit [' ', 'm', 'i', 'n', 'u', 't', 'e', 's']], [.lit ['i', 'n', ' '], .ref 1, .lit [' ', 'm', 'i', 'n', 'u', 't', 'e']]),
    (.seqs [.lit ['d', 'a', 'n', 's', ' '], .grp 1 (.number), .lit [' ', 's', 'e', 'c', 'o', 'n', 'd', 'e']], [.lit ['i', 'n', ' '], .ref 1, .lit [' ', 's', 'e', 'c', 'o', 'n', 'd']]),
    (.seqs [.lit ['d', 'a', 'n', 's', ' '], .grp 1 (.number), .lit [' ', 's', 'e', 'm', 'a', 'i', 'n', 'e']], [.lit ['i', 'n', ' '], .ref 1, .lit [' ', 'w', 'e', 'e', 'k']]),
    (.seqs [.lit ['i', 'l', ' ', 'y', ' ', 'a', ' '], .grp 1 (.number), .lit [' ', 'h', 'e', 'u', 'r', 'e']], [.ref 1, .lit [' ', 'h', 'o', 'u', 'r', ' ', 'a', 'g', 'o']]),
    (.seqs [.lit ['i', 'l', ' ', 'y', ' ', 'a', ' '], .grp 1 (.number), .lit [' ', 'j', 'o', 'u', 'r', 's']], [.ref 1, .lit [' ', 'd', 'a', 'y', ' ', 'a', 'g', 'o']]),
    (.seqs [.lit ['d', 'a', 'n', 's', ' '], .grp 1 (.number), .lit [' ', 'h', 'e', 'u', 'r', 'e', 's']], [.lit ['i', 'n', ' '], .ref 1, .lit [' ', 'h', 'o', 'u', 'r']]),
    (.seqs [.lit ['d', 'a', 'n', 's', ' '], .grp 1 (.number), .lit [' ', 'm', 'i', 'n', 'u', 't', 'e']], [.lit ['i', 'n', ' '], .ref 1, .lit [' ', 'm', 'i', 'n', 'u', 't', 'e']]),
    (.seqs [.lit ['i', 'l', ' ', 'y', ' ', 'a', ' '], .grp 1 (.number), .lit [' ', 'j', 'o', 'u', 'r']], [.ref 1, .lit [' ', 'd', 'a', 'y', ' ', 'a', 'g', 'o']]),
    (.seqs [.lit ['i', 'l', ' ', 'y', ' ', 'a', ' '], .grp 1 (.number), .lit [' ', 'm', 'o', 'i', 's']], [.ref 1, .lit [' ', 'm', 'o', 'n', 't', 'h', ' ', 'a', 'g', 'o']]),
    (.seqs [.lit ['d', 'a', 'n', 's', ' '], .grp 1 (.number), .lit [' ', 'h', 'e', 'u', 'r', 'e']], [.lit ['i', 'n', ' '], .ref 1, .lit [' ', 'h', 'o', 'u', 'r']]),
    (.seqs [.lit ['d', 'a', 'n', 's', ' '], .grp 1 (.number), .lit [' ', 'j', 'o', 'u', 'r', 's']], [.lit ['i', 'n', ' '], .ref 1, .lit [' ', 'd', 'a', 'y']]),
    (.seqs [.lit ['i', 'l', ' ', 'y', ' ', 'a', ' '], .grp 1 (.number), .lit [' ', 'a', 'n', 's']], [.ref 1, .lit [' ', 'y', 'e', 'a', 'r', ' ', 'a', 'g', 'o']]),
    (.seqs [.lit ['i', 'l', ' ', 'y', ' ', 'a', ' '], .grp 1 (.number), .lit [' ', 'm', 'i', 'n']], [.ref 1, .lit [' ', 'm', 'i', 'n', 'u', 't', 'e', ' ', 'a', 'g', 'o']]),
    (.seqs [.lit ['i', 'l', ' ', 'y', ' ', 'a', ' '], .grp 1 (.number), .lit [' ', 's', 'e', 'm']], [.ref 1, .lit [' ', 'w', 'e', 'e', 'k', ' ', 'a', 'g', 'o']]),
    (.seqs [.lit ['d', 'a', 'n', 's', ' '], .grp 1 (.number), .lit [' ', 'j', 'o', 'u', 'r']], [.lit ['i', 'n', ' '], .ref 1, .lit [' ', 'd', 'a', 'y']]),
    (.seqs [.lit ['d', 'a', 'n', 's', ' '], .grp 1 (.number), .lit [' ', 'm', 'o', 'i', 's']], [.lit ['i', 'n', ' '], .ref 1, .lit [' ', 'm', 'o', 'n', 't', 'h']]),
    (.seqs [.lit ['i', 'l', ' ', 'y', ' ', 'a', ' '], .grp 1 (.number), .lit [' ', 'a', 'n']], [.ref 1, .lit [' ', 'y', 'e', 'a', 'r', ' ', 'a', 'g', 'o']]),
    (.seqs [.lit ['i', 'l', ' ', 'y', ' ', 'a', ' '], .grp 1 (.number), .lit ['m', 'i', 'n']], [.ref 1, .lit [' ', 'm', 'i', 'n', 'u', 't', 'e', ' ', 'a', 'g', 'o']]),
    (.seqs [.lit ['d', 'a', 'n', 's', ' '], .grp 1 (.number), .lit [' ', 'a', 'n', 's']], [.lit ['i', 'n', ' '], .ref 1, .lit [' ', 'y', 'e', 'a', 'r']]),
    (.seqs [.lit ['d', 'a', 'n', 's', ' '], .grp 1 (.number), .lit [' ', 'm', 'i', 'n']], [.lit ['i', 'n', ' '], .ref 1, .lit [' ', 'm', 'i', 'n', 'u', 't', 'e']]),
    (.seqs [.lit ['d', 'a', 'n', 's', ' '], .grp 1 (.number), .lit [' ', 's', 'e', 'm']], [.lit ['i', 'n', ' '], .ref 1, .lit [' ', 'w', 'e', 'e', 'k']]),
    (.seqs [.lit ['i', 'l', ' ', 'y', ' ', 'a', ' '], .grp 1 (.number), .lit [' ', 'a']], [.ref 1, .lit [' ', 'y', 'e', 'a', 'r', ' ', 'a', 'g', 'o']]),
    (.seqs [.lit ['i', 'l', ' ', 'y', ' ', 'a', ' '], .grp 1 (.number), .lit [' ', 'h']], [.ref 1, .lit [' ', 'h', 'o', 'u', 'r', ' ', 'a', 'g', 'o']]),
    (.seqs [.lit ['i', 'l', ' ', 'y', ' ', 'a', ' '], .grp 1 (.number), .lit [' ', 'j']], [.ref 1, .lit [' ', 'd', 'a', 'y', ' ', 'a', 'g', 'o']]),
    (.seqs [.lit ['i', 'l', ' ', 'y', ' ', 'a', ' '], .grp 1 (.number), .lit [' ', 'm']], [.ref 1, .lit [' ', 'm', 'o', 'n', 't', 'h', ' ', 'a', 'g', 'o']]),
    (.seqs [.lit ['i', 'l', ' ', 'y', ' ', 'a', ' '], .grp 1 (.number), .lit [' ', 's']], [.ref 1, .lit [' ', 's', 'e', 'c', 'o', 'n', 'd', ' ', 'a', 'g', 'o']]),
    (.seqs [.lit ['d', 'a', 'n', 's', ' '], .grp 1 (.number), .lit [' ', 'a', 'n']], [.lit ['i', 'n', ' '], .ref 1, .lit [' ', 'y', 'e', 'a', 'r']]),
    (.seqs [.lit ['i', 'l', ' ', 'y', ' ', 'a', ' '], .grp 1 (.number), .lit ['h']], [.ref 1, .lit [' ', 'h', 'o', 'u', 'r', ' ', 'a', 'g', 'o']]),
    (.seqs [.lit ['d', 'a', 'n', 's', ' '], .grp 1 (.number), .lit [' ', 'a']], [.lit ['i', 'n', ' '], .ref 1, .lit [' ', 'y', 'e', 'a', 'r']]),
    (.seqs [.lit ['d', 'a', 'n', 's', ' '], .grp 1 (.number), .lit [' ', 'h']], [.lit ['i', 'n', ' '], .ref 1, .lit [' ', 'h', 'o', 'u', 'r']]),
    (.seqs [.lit ['d', 'a', 'n', 's', ' '], .grp 1 (.number), .lit [' ', 'j']], [.lit ['i', 'n', ' '], .ref 1, .lit [' ', 'd', 'a', 'y']]),
    (.seqs [.lit ['d', 'a', 'n', 's', ' '], .grp 1 (.number), .lit [' ', 'm']], [.lit ['i', 'n', ' '], .ref 1, .lit [' ', 'm', 'o', 'n', 't', 'h']]),
    (.seqs [.lit ['d', 'a', 'n', 's', ' '], .grp 1 (.number), .lit [' ', 's']], [.lit ['i', 'n', ' '], .ref 1, .lit [' ', 's', 'e', 'c', 'o', 'n', 'd']]),
    (.seqs [.lit ['d', 'a', 'n', 's', ' '], .grp 1 (.number), .lit ['h']], [.lit ['i', 'n', ' '], .ref 1, .lit [' ', 'h', 'o', 'u', 'r']])]
  rxCombined := some (.seqs [.grp 1 (.alts [.bos, .cls true [.letter, .mark, .digit], .lit ['_']]), .grp 2 (.alts [.seqs [.lit ['i', 'l', ' ', 'y', ' ', 'a', ' '], .number, .lit [' ', 's', 'e', 'c', 'o', 'n', 'd', 'e', 's']], .seqs [.lit ['i', 'l', ' ', 'y', ' ', 'a', ' '], .number, .lit [' ', 's', 'e', 'm', 'a', 'i', 'n', 'e', 's']], .seqs [.lit ['i', 'l', ' ', 'y', ' ', 'a', ' '], .number, .lit [' ', 'm', 'i', 'n', 'u', 't', 'e', 's']], .seqs [.lit ['i', 'l', ' ', 'y', ' ', 'a', ' '], .number, .lit [' ', 's', 'e', 'c', 'o', 'n', 'd', 'e']], .seqs [.lit ['i', 'l', ' ', 'y', ' ', 'a', ' '], .number, .lit [' ', 's', 'e', 'm', 'a', 'i', 'n', 'e']], .seqs [.lit ['d', 'a', 'n', 's', ' '], .number, .lit [' ', 's', 'e', 'c', 'o', 'n', 'd', 'e', 's']], .seqs [.lit ['d', 'a', 'n', 's', ' '], .number, .lit [' ', 's', 'e', 'm', 'a', 'i', 'n', 'e', 's']], .seqs [.lit ['i', 'l', ' ', 'y', ' ', 'a', ' '], .number, .lit [' ', 'h', 'e', 'u', 'r', 'e', 's']], .seqs [.lit ['i', 'l', ' ', 'y', ' ', 'a', ' '], .number, .lit [' ', 'm', 'i', 'n', 'u', 't', 'e']], .seqs [.lit ['d', 'a', 'n', 's', ' '], .number, .lit [' ', 'm', 'i', 'n', 'u', 't', 'e', 's']], .seqs [.lit ['d', 'a', 'n', 's', ' '], .number, .lit [' ', 's', 'e', 'c', 'o', 'n', 'd', 'e']], .seqs [.lit ['d', 'a', 'n', 's', ' '], .number, .lit [' ', 's', 'e', 'm', 'a', 'i', 'n', 'e']], .seqs [.lit ['i', 'l', ' ', 'y', ' ', 'a', ' '], .number, .lit [' ', 'h', 'e', 'u', 'r', 'e']], .seqs [.lit ['i', 'l', ' ', 'y', ' ', 'a', ' '], .number, .lit [' ', 'j', 'o', 'u', 'r', 's']], .seqs [.lit ['d', 'a', 'n', 's', ' '], .number, .lit [' ', 'h', 'e', 'u', 'r', 'e', 's']], .seqs [.lit ['d', 'a', 'n', 's', ' '], .number, .lit [' ', 'm', 'i', 'n', 'u', 't', 'e']], .seqs [.lit ['i', 'l', ' ', 'y', ' ', 'a', ' '], .number, .lit [' ', 'j', 'o', 'u', 'r']], .seqs [.lit ['i', 'l', ' ', 'y', ' ', 'a', ' '], .number, .lit [' ', 'm', 'o', 'i', 's']], .seqs [.lit ['d', 'a', 'n', 's', ' '], .number, .lit [' ', 'h', 'e', 'u', 'r', 'e']], .seqs [.lit ['d', 'a', 'n', 's', ' '], .number, .lit [' ', 'j', 'o', 'u', 'r', 's']], .seqs [.lit ['i', 'l', ' ', 'y', ' ', 'a', ' '], .number, .lit [' ', 'a', 'n', 's']], .seqs [.lit ['i', 'l', ' ', 'y', ' ', 'a', ' '], .number, .lit [' ', 'm', 'i', 'n']], .seqs [.lit ['i', 'l', ' ', 'y', ' ', 'a', ' '], .number, .lit [' ', 's', 'e', 'm']], .seqs [.lit ['d', 'a', 'n', 's', ' '], .number, .lit [' ', 'j', 'o', 'u', 'r']], .seqs [.lit ['d', 'a', 'n', 's', ' '], .number, .lit [' ', 'm', 'o', 'i', 's']], .seqs [.lit ['i', 'l', ' ', 'y', ' ', 'a', ' '], .number, .lit [' ', 'a', 'n']], .seqs [.lit ['i', 'l', ' ', 'y', ' ', 'a', ' '], .number, .lit ['m', 'i', 'n']], .seqs [.lit ['d', 'a', 'n', 's', ' '], .number, .lit [' ', 'a', 'n', 's']], .seqs [.lit ['d', 'a', 'n', 's', ' '], .number, .lit [' ', 'm', 'i', 'n']], .seqs [.lit ['d', 'a', 'n', 's', ' '], .number, .lit [' ', 's', 'e', 'm']], .seqs [.lit ['i', 'l', ' ', 'y', ' ', 'a', ' '], .number, .lit [' ', 'a']], .seqs [.lit ['i', 'l', ' ', 'y', ' ', 'a', ' '], .number, .lit [' ', 'h']], .seqs [.lit ['i', 'l', ' ', 'y', ' ', 'a', ' '], .number, .lit [' ', 'j']], .seqs [.lit ['i', 'l', ' ', 'y', ' ', 'a', ' '], .number, .lit [' ', 'm']], .seqs [.lit ['i', 'l', ' ', 'y', ' ', 'a', ' '], .number, .lit [' ', 's']], .seqs [.lit ['d', 'a', 'n', 's', ' '], .number, .lit [' ', 'a', 'n']], .seqs [.lit ['i', 'l', ' ', 'y', ' ', 'a', ' '], .number, .lit ['h']], .seqs [.lit ['d', 'a', 'n', 's', ' '], .number, .lit [' ', 'a']], .seqs [.lit ['d', 'a', 'n', 's', ' '], .number, .lit [' ', 'h']], .seqs [.lit ['d', 'a', 'n', 's', ' '], .number, .lit [' ', 'j']], .seqs [.lit ['d', 'a', 'n', 's', ' '], .number, .lit [' ', 'm']], .seqs [.lit ['d', 'a', 'n', 's', ' '], .number, .lit [' ', 's']], .seqs [.lit ['d', 'a', 'n', 's', ' '], .number, .lit ['h']]]), .grp 3 (.alts [.eos, .cls true [.letter, .mark, .digit], .lit ['_']])], 3)
  rxExact := some (.seqs [.bos, .grp 1 (.alts [.seqs [.lit ['i', 'l', ' ', 'y', ' ', 'a', ' '], .number, .lit [' ', 's', 'e', 'c', 'o', 'n', 'd', 'e', 's']], .seqs [.lit ['i', 'l', ' ', 'y', ' ', 'a', ' '], .number, .lit [' ', 's', 'e', 'm', 'a', 'i', 'n', 'e', 's']], .seqs [.lit ['i', 'l', ' ', 'y', ' ', 'a', ' '], .number, .lit [' ', 'm', 'i', 'n', 'u', 't', 'e', 's']], .seqs [.lit ['i', 'l', ' ', 'y', ' ', 'a', ' '], .number, .lit [' ', 's', 'e', 'c', 'o', 'n', 'd', 'e']], .seqs [.lit ['i', 'l', ' ', 'y', ' ', 'a', ' '], .number, .lit [' ', 's', 'e', 'm', 'a', 'i', 'n', 'e']], .seqs [.lit ['d', 'a', 'n', 's', ' '], .number, .lit [' ', 's', 'e', 'c', 'o', 'n', 'd', 'e', 's']], .seqs [.lit ['d', 'a', 'n', 's', ' '], .number, .lit [' ', 's', 'e', 'm', 'a', 'i', 'n', 'e', 's']], .seqs [.lit ['i', 'l', ' ', 'y', ' ', 'a', ' '], .number, .lit [' ', 'h', 'e', 'u', 'r', 'e', 's']], .seqs [.lit ['i', 'l', ' ', 'y', ' ', 'a', ' '], .number, .lit [' ', 'm', 'i', 'n', 'u', 't', 'e']], .seqs [.lit ['d', 'a', 'n', 's', ' '], .number, .lit [' ', 'm', 'i', 'n', 'u', 't', 'e', 's']], .seqs [.lit ['d', 'a', 'n', 's', ' '], .number, .lit [' ', 's', 'e', 'c', 'o', 'n', 'd', 'e']], .seqs [.lit ['d', 'a', 'n', 's', ' '], .number, .lit [' ', 's', 'e', 'm', 'a', 'i', 'n', 'e']], .seqs [.lit ['i', 'l', ' ', 'y', ' ', 'a', ' '], .number, .lit [' ', 'h', 'e', 'u', 'r', 'e']], .seqs [.lit ['i', 'l', ' ', 'y', ' ', 'a', ' '], .number, .lit [' ', 'j', 'o', 'u', 'r', 's']], .seqs [.lit ['d', 'a', 'n', 's', ' '], .number, .lit [' ', 'h', 'e', 'u', 'r', 'e', 's']], .seqs [.lit ['d', 'a', 'n', 's', ' '], .number, .lit [' ', 'm', 'i', 'n', 'u', 't', 'e']], .seqs [.lit ['i', 'l', ' ', 'y', ' ', 'a', ' '], .number, .lit [' ', 'j', 'o', 'u', 'r']], .seqs [.lit ['i', 'l', ' ', 'y', ' ', 'a', ' '], .number, .lit [' ', 'm', 'o', 'i', 's']], .seqs [.lit ['d', 'a', 'n', 's', ' '], .number, .lit [' ', 'h', 'e', 'u', 'r', 'e']], .seqs [.lit ['d', 'a', 'n', 's', ' '], .number, .lit [' ', 'j', 'o', 'u', 'r', 's']], .seqs [.lit ['i', 'l', ' ', 'y', ' ', 'a', ' '], .number, .lit [' ', 'a', 'n', 's']], .seqs [.lit ['i', 'l', ' ', 'y', ' ', 'a', ' '], .number, .lit [' ', 'm', 'i', 'n']], .seqs [.lit ['i', 'l', ' ', 'y', ' ', 'a', ' '], .number, .lit [' ', 's', 'e', 'm']], .seqs [.lit ['d', 'a', 'n', 's', ' '], .number, .lit [' ', 'j', 'o', 'u', 'r']], .seqs [.lit ['d', 'a', 'n', 's', ' '], .number, .lit [' ', 'm', 'o', 'i', 's']], .seqs [.lit ['i', 'l', ' ', 'y', ' ', 'a', ' '], .number, .lit [' ', 'a', 'n']], .seqs [.lit ['i', 'l', ' ', 'y', ' ', 'a', ' '], .number, .lit ['m', 'i', 'n']], .seqs [.lit ['d', 'a', 'n', 's', ' '], .number, .lit [' ', 'a', 'n', 's']], .seqs [.lit ['d', 'a', 'n', 's', ' '], .number, .lit [' ', 'm', 'i', 'n']], .seqs [.lit ['d', 'a', 'n', 's', ' '], .number, .lit [' ', 's', 'e', 'm']], .seqs [.lit ['i', 'l', ' ', 'y', ' ', 'a', ' '], .number, .lit [' ', 'a']], .seqs [.lit ['i', 'l', ' ', 'y', ' ', 'a', ' '], .number, .lit [' ', 'h']], .seqs [.lit ['i', 'l', ' ', 'y', ' ', 'a', ' '], .number, .lit [' ', 'j']], .seqs [.lit ['i', 'l', ' ', 'y', ' ', 'a', ' '], .number, .lit [' ', 'm']], .seqs [.lit ['i', 'l', ' ', 'y', ' ', 'a', ' '], .number, .lit [' ', 's']], .seqs [.lit ['d', 'a', 'n', 's', ' '], .number, .lit [' ', 'a', 'n']], .seqs [.lit ['i', 'l', ' ', 'y', ' ', 'a', ' '], .number, .lit ['h']], .seqs [.lit ['d', 'a', 'n', 's', ' '], .number, .lit [' ', 'a']], .seqs [.lit ['d', 'a', 'n', 's', ' '], .number, .lit [' ', 'h']], .seqs [.lit ['d', 'a', 'n', 's', ' '], .number, .lit [' ', 'j']], .seqs [.lit ['d', 'a', 'n', 's', ' '], .number, .lit [' ', 'm']], .seqs [.lit ['d', 'a', 'n', 's', ' '], .number, .lit [' ', 's']], .seqs [.lit ['d', 'a', 'n', 's', ' '], .number, .lit ['h']]]), .eos])
  knownWords :=
   [['l', 'a', ' ', 's', 'e', 'm', 'a', 'i', 'n', 'e', ' ', 'p', 'r', 'o', 'c', 'h', 'a', 'i', 'n', 'e'],
    ['l', 'a', ' ', 's', 'e', 'm', 'a', 'i', 'n', 'e', ' ', 'd', 'e', 'r', 'n', 'i', 'e', 'r', 'e'],
    ['l', '\'', 'a', 'n', 'n', 'e', 'e', ' ', 'p', 'r', 'o', 'c', 'h', 'a', 'i', 'n', 'e'],
    ['l', '\'', 'a', 'n', 'n', 'e', 'e', ' ', 'd', 'e', 'r', 'n', 'i', 'e', 'r', 'e'],
    ['l', 'e', ' ', 'm', 'o', 'i', 's', ' ', 'p', 'r', 'o', 'c', 'h', 'a', 'i', 'n'],
    ['c', 'e', 't', 't', 'e', ' ', 'm', 'i', 'n', 'u', 't', 'e', '-', 'c', 'i'],
    ['l', 'e', ' ', 'm', 'o', 'i', 's', ' ', 'd', 'e', 'r', 'n', 'i', 'e', 'r'],
    ['c', 'e', 't', 't', 'e', ' ', 'h', 'e', 'u', 'r', 'e', '-', 'c', 'i'],
    ['c', 'e', 't', 't', 'e', ' ', 's', 'e', 'm', 'a', 'i', 'n', 'e'],
    ['a', 'p', 'r', 'e', 's', '-', 'd', 'e', 'm', 'a', 'i', 'n'],
    ['a', 'u', 'j', 'o', 'u', 'r', 'd', '\'', 'h', 'u', 'i'],
    ['c', 'e', 't', 't', 'e', ' ', 'a', 'n', 'n', 'e', 'e'],
    ['a', 'v', 'a', 'n', 't', '-', 'h', 'i', 'e', 'r'],
    ['c', 'e', ' ', 'm', 'o', 'i', 's', '-', 'c', 'i'],
    ['m', 'a', 'i', 'n', 't', 'e', 'n', 'a', 'n', 't'],
    ['s', 'e', 'p', 't', 'e', 'm', 'b', 'r', 'e'],
    ['d', 'e', 'c', 'e', 'm', 'b', 'r', 'e'],
    ['d', 'i', 'm', 'a', 'n', 'c', 'h', 'e'],
    ['m', 'e', 'r', 'c', 'r', 'e', 'd', 'i'],
    ['n', 'o', 'v', 'e', 'm', 'b', 'r', 'e'],
    ['s', 'e', 'c', 'o', 'n', 'd', 'e', 's'],
    ['s', 'e', 'm', 'a', 'i', 'n', 'e', 's'],
    ['v', 'e', 'n', 'd', 'r', 'e', 'd', 'i'],
    ['e', 'n', 'v', 'i', 'r', 'o', 'n'],
    ['f', 'e', 'v', 'r', 'i', 'e', 'r'],
    ['j', 'a', 'n', 'v', 'i', 'e', 'r'],
    ['j', 'u', 'i', 'l', 'l', 'e', 't'],
    ['m', 'i', 'n', 'u', 't', 'e', 's'],
    ['o', 'c', 't', 'o', 'b', 'r', 'e'],
    ['s', 'e', 'c', 'o', 'n', 'd', 'e'],
    ['s', 'e', 'm', 'a', 'i', 'n', 'e'],
    ['a', 'n', 'n', 'e', 'e', 's'],
    ['d', 'e', 'm', 'a', 'i', 'n'],
    ['h', 'e', 'u', 'r', 'e', 's'],
    ['i', 'l', ' ', 'y', ' ', 'a'],
    ['m', 'i', 'n', 'u', 't', 'e'],
    ['s', 'a', 'm', 'e', 'd', 'i'],
    ['a', 'n', 'n', 'e', 'e'],
    ['a', 'p', 'r', 'e', 's'],
    ['a', 'v', 'r', 'i', 'l'],
    ['h', 'e', 'u', 'r', 'e'],
    ['i', 'l', ' ', 'y', 'a'],
    ['j', 'e', 'u', 'd', 'i'],
    ['j', 'o', 'u', 'r', 's'],
    ['l', 'u', 'n', 'd', 'i'],
    ['m', 'a', 'r', 'd', 'i'],
    ['a', 'o', 'u', 't'],
    ['d', 'a', 'n', 's'],
    ['f', 'e', 'v', 'r'],
    ['h', 'i', 'e', 'r'],
    ['j', 'a', 'n', 'v'],
    ['j', 'o', 'u', 'r'],
    ['j', 'u', 'i', 'l'],
    ['j', 'u', 'i', 'n'],
    ['m', 'a', 'r', 's'],
    ['m', 'o', 'i', 's'],
    ['s', 'e', 'p', 't'],
    ['a', 'n', 's'],
    ['a', 'o', 'u'],
    ['a', 'v', 'r'],
    ['d', 'e', 'c'],
    ['d', 'i', 'm'],
    ['f', 'e', 'v'],
    ['g', 'm', 't'],
    ['j', 'a', 'n'],
    ['j', 'e', 'u'],
    ['j', 'u', 'l'],
    ['j', 'u', 'n'],
    ['l', 'u', 'n'],
    ['m', 'a', 'i'],
    ['m', 'a', 'r'],
    ['m', 'e', 'r'],
    ['m', 'i', 'n'],
    ['n', 'o', 'v'],
    ['o', 'c', 't'],
    ['s', 'a', 'm'],
    ['s', 'e', 'm'],
    ['s', 'e', 'p'],
    ['u', 't', 'c'],
    ['v', 'e', 'n'],
    ['a', 'm'],
    ['a', 'n'],
    ['d', 'i'],
    ['e', 'n'],
    ['e', 'r'],
    ['e', 't'],
    ['j', 'e'],
    ['l', 'e'],
    ['l', 'u'],
    ['m', 'a'],
    ['m', 'e'],
    ['p', 'm'],
    ['s', 'a'],
    ['v', 'e'],
    [' '],
    ['\''],
    ['+'],
    [','],
    ['-'],
    ['.'],
    ['/'],
    [':'],
    [';'],
    ['@'],
    ['['],
    [']'],
    ['a'],
    ['h'],
    ['j'],
    ['m'],
    ['s'],
    ['z'],
    ['|']]

end Verif.Data
