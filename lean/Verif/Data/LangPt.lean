import Verif.Model.Pattern
/-! GENERATED by tools/gen_langs.py from /repo/internal/data/pt.go; do not edit. -/
set_option autoImplicit false
set_option maxRecDepth 100000
namespace Verif.Data
open Verif.Model

/-- internal/data/pt.go: `pt_Locale`. -/
def ptData : LangData where
  name := ['p', 't']
  splitterGroup := 1
  simplifications :=
   [(.seqs [.grp 1 (.alts [.bos, .noWord]), .lit ['u', 'm', 'a'], .grp 2 (.alts [.eos, .noWord])], [.ref 1, .lit ['1'], .ref 2]),
    (.seqs [.grp 1 (.alts [.bos, .noWord]), .lit ['u', 'm'], .grp 2 (.alts [.eos, .noWord])], [.ref 1, .lit ['1'], .ref 2]),
    (.seqs [.grp 1 (.alts [.bos, .noWord]), .lit ['a', 'l', 'g', 'u', 'n', 's', ' ', 's', 'e', 'g', 'u', 'n', 'd', 'o', 's'], .grp 2 (.alts [.eos, .noWord])], [.ref 1, .lit ['4', '4', ' ', 's', 'e', 'g', 'u', 'n', 'd', 'o', 's'], .ref 2])]
  translations :=
   [(['s', 'e', 'g', 'u', 'n', 'd', 'a', '-', 'f', 'e', 'i', 'r', 'a'], [['m', 'o', 'n', 'd', 'a', 'y']]),
    (['q', 'u', 'a', 'r', 't', 'a', '-', 'f', 'e', 'i', 'r', 'a'], [['w', 'e', 'd', 'n', 'e', 's', 'd', 'a', 'y']]),
    (['q', 'u', 'i', 'n', 't', 'a', '-', 'f', 'e', 'i', 'r', 'a'], [['t', 'h', 'u', 'r', 's', 'd', 'a', 'y']]),
    (['s', 'e', 'x', 't', 'a', '-', 'f', 'e', 'i', 'r', 'a'], [['f', 'r', 'i', 'd', 'a', 'y']]),
    (['t', 'e', 'r', 'c', 'a', '-', 'f', 'e', 'i', 'r', 'a'], [['t', 'u', 'e', 's', 'd', 'a', 'y']]),
    (['f', 'e', 'v', 'e', 'r', 'e', 'i', 'r', 'o'], [['f', 'e', 'b', 'r', 'u', 'a', 'r', 'y']]),
    (['s', 'e', 'p', 't', 'e', 'm', 'b', 'r', 'o'], [['s', 'e', 'p', 't', 'e', 'm', 'b', 'e', 'r']]),
    (['d', 'e', 'z', 'e', 'm', 'b', 'r', 'o'], [['d', 'e', 'c', 'e', 'm', 'b', 'e', 'r']]),
    (['n', 'o', 'v', 'e', 'm', 'b', 'r', 'o'], [['n', 'o', 'v', 'e', 'm', 'b', 'e', 'r']]),
    (['s', 'e', 'g', 'u', 'n', 'd', 'o', 's'], [['s', 'e', 'c', 'o', 'n', 'd']]),
    (['s', 'e', 't', 'e', 'm', 'b', 'r', 'o'], [['s', 'e', 'p', 't', 'e', 'm', 'b', 'e', 'r']]),
    (['d', 'o', 'm', 'i', 'n', 'g', 'o'], [['s', 'u', 'n', 'd', 'a', 'y']]),
    (['j', 'a', 'n', 'e', 'i', 'r', 'o'], [['j', 'a', 'n', 'u', 'a', 'r', 'y']]),
    (['m', 'i', 'n', 'u', 't', 'o', 's'], [['m', 'i', 'n', 'u', 't', 'e']]),
    (['o', 'u', 't', 'u', 'b', 'r', 'o'], [['o', 'c', 't', 'o', 'b', 'e', 'r']]),
    (['s', 'e', 'g', 'u', 'n', 'd', 'a'], [['m', 'o', 'n', 'd', 'a', 'y']]),
    (['s', 'e', 'g', 'u', 'n', 'd', 'o'], [['s', 'e', 'c', 'o', 'n', 'd']]),
    (['s', 'e', 'm', 'a', 'n', 'a', 's'], [['w', 'e', 'e', 'k']]),
    (['a', 'g', 'o', 's', 't', 'o'], [['a', 'u', 'g', 'u', 's', 't']]),
    (['m', 'i', 'n', 'u', 't', 'o'], [['m', 'i', 'n', 'u', 't', 'e']]),
    (['q', 'u', 'a', 'r', 't', 'a'], [['w', 'e', 'd', 'n', 'e', 's', 'd', 'a', 'y']]),
    (['q', 'u', 'i', 'n', 't', 'a'], [['t', 'h', 'u', 'r', 's', 'd', 'a', 'y']]),
    (['s', 'a', 'b', 'a', 'd', 'o'], [['s', 'a', 't', 'u', 'r', 'd', 'a', 'y']]),
    (['s', 'e', 'm', 'a', 'n', 'a'], [['w', 'e', 'e', 'k']]),
    (['a', 'b', 'r', 'i', 'l'], [['a', 'p', 'r', 'i', 'l']]),
    (['a', 't', 'r', 'a', 's'], [['a', 'g', 'o']]),
    (['c', 'e', 'r', 'c', 'a'], [[]]),
    (['h', 'o', 'r', 'a', 's'], [['h', 'o', 'u', 'r']]),
    (['j', 'u', 'l', 'h', 'o'], [['j', 'u', 'l', 'y']]),
    (['j', 'u', 'n', 'h', 'o'], [['j', 'u', 'n', 'e']]),
    (['m', 'a', 'r', 'c', 'o'], [['m', 'a', 'r', 'c', 'h']]),
    (['m', 'e', 's', 'e', 's'], [['m', 'o', 'n', 't', 'h']]),
    (['s', 'e', 'x', 't', 'a'], [['f', 'r', 'i', 'd', 'a', 'y']]),
    (['t', 'e', 'r', 'c', 'a'], [['t', 'u', 'e', 's', 'd', 'a', 'y']]),
    (['a', 'n', 'o', 's'], [['y', 'e', 'a', 'r']]),
    (['d', 'i', 'a', 's'], [['d', 'a', 'y']]),
    (['h', 'o', 'r', 'a'], [['h', 'o', 'u', 'r']]),
    (['m', 'a', 'i', 'o'], [['m', 'a', 'y']]),
    (['a', 'b', 'r'], [['a', 'p', 'r', 'i', 'l']]),
    (['a', 'g', 'o'], [['a', 'u', 'g', 'u', 's', 't']]),
    (['a', 'n', 'o'], [['y', 'e', 'a', 'r']]),
    (['d', 'e', 'z'], [['d', 'e', 'c', 'e', 'm', 'b', 'e', 'r']]),
    (['d', 'i', 'a'], [['d', 'a', 'y']]),
    (['d', 'o', 'm'], [['s', 'u', 'n', 'd', 'a', 'y']]),
    (['f', 'e', 'v'], [['f', 'e', 'b', 'r', 'u', 'a', 'r', 'y']]),
    (['g', 'm', 't'], [['g', 'm', 't']]),
    (['j', 'a', 'n'], [['j', 'a', 'n', 'u', 'a', 'r', 'y']]),
    (['j', 'u', 'l'], [['j', 'u', 'l', 'y']]),
    (['j', 'u', 'n'], [['j', 'u', 'n', 'e']]),
    (['m', 'a', 'i'], [['m', 'a', 'y']]),
    (['m', 'a', 'r'], [['m', 'a', 'r', 'c', 'h']]),
    (['m', 'e', 's'], [['m', 'o', 'n', 't', 'h']]),
    (['m', 'i', 'n'], [['m', 'i', 'n', 'u', 't', 'e']]),
    (['n', 'o', 'v'], [['n', 'o', 'v', 'e', 'm', 'b', 'e', 'r']]),
    (['o', 'u', 't'], [['o', 'c', 't', 'o', 'b', 'e', 'r']]),
    (['q', 'u', 'a'], [['w', 'e', 'd', 'n', 'e', 's', 'd', 'a', 'y']]),
    (['q', 'u', 'i'], [['t', 'h', 'u', 'r', 's', 'd', 'a', 'y']]),
    (['s', 'a', 'b'], [['s', 'a', 't', 'u', 'r', 'd', 'a', 'y']]),
    (['s', 'e', 'g'], [['m', 'o', 'n', 'd', 'a', 'y'], ['s', 'e', 'c', 'o', 'n', 'd']]),
    (['s', 'e', 'm'], [['w', 'e', 'e', 'k']]),
    (['s', 'e', 't'], [['s', 'e', 'p', 't', 'e', 'm', 'b', 'e', 'r']]),
    (['s', 'e', 'x'], [['f', 'r', 'i', 'd', 'a', 'y']]),
    (['t', 'e', 'r'], [['t', 'u', 'e', 's', 'd', 'a', 'y']]),
    (['u', 't', 'c'], [['u', 't', 'c']]),
    (['a', 'm'], [['a', 'm']]),
    (['a', 's'], [[]]),
    (['d', 'e'], [[]]),
    (['e', 'm'], [['i', 'n']]),
    (['h', 'a'], [['a', 'g', 'o']]),
    (['p', 'm'], [['p', 'm']]),
    ([' '], [[' ']]),
    (['\''], [[]]),
    (['+'], [['+']]),
    ([','], [[]]),
    (['-'], [['-']]),
    (['.'], [['.']]),
    (['/'], [['/']]),
    ([':'], [[':']]),
    ([';'], [[]]),
    (['@'], [[]]),
    (['['], [[]]),
    ([']'], [[]]),
    (['e'], [[]]),
    (['h'], [['h', 'o', 'u', 'r']]),
    (['m'], [['m', 'i', 'n', 'u', 't', 'e']]),
    (['s'], [['s', 'e', 'c', 'o', 'n', 'd']]),
    (['z'], [['z']]),
    (['|'], [[]])]
  relativeType :=
   [(['p', 'r', 'o', 'x', 'i', 'm', 'a', ' ', 's', 'e', 'm', 'a', 'n', 'a'], ['i', 'n', ' ', '1', ' ', 'w', 'e', 'e', 'k']),
    (['s', 'e', 'm', 'a', 'n', 'a', ' ', 'p', 'a', 's', 's', 'a', 'd', 'a'], ['1', ' ', 'w', 'e', 'e', 'k', ' ', 'a', 'g', 'o']),
    (['a', 'n', 'o', ' ', 'p', 'a', 's', 's', 'a', 'd', 'o'], ['1', ' ', 'y', 'e', 'a', 'r', ' ', 'a', 'g', 'o']),
    (['e', 's', 't', 'a', ' ', 's', 'e', 'm', 'a', 'n', 'a'], ['0', ' ', 'w', 'e', 'e', 'k', ' ', 'a', 'g', 'o']),
    (['e', 's', 't', 'e', ' ', 'm', 'i', 'n', 'u', 't', 'o'], ['0', ' ', 'm', 'i', 'n', 'u', 't', 'e', ' ', 'a', 'g', 'o']),
    (['m', 'e', 's', ' ', 'p', 'a', 's', 's', 'a', 'd', 'o'], ['1', ' ', 'm', 'o', 'n', 't', 'h', ' ', 'a', 'g', 'o']),
    (['p', 'r', 'o', 'x', 'i', 'm', 'o', ' ', 'a', 'n', 'o'], ['i', 'n', ' ', '1', ' ', 'y', 'e', 'a', 'r']),
    (['p', 'r', 'o', 'x', 'i', 'm', 'o', ' ', 'm', 'e', 's'], ['i', 'n', ' ', '1', ' ', 'm', 'o', 'n', 't', 'h']),
    (['a', 'n', 't', 'e', 'o', 'n', 't', 'e', 'm'], ['2', ' ', 'd', 'a', 'y', ' ', 'a', 'g', 'o']),
    (['e', 's', 't', 'a', ' ', 'h', 'o', 'r', 'a'], ['0', ' ', 'h', 'o', 'u', 'r', ' ', 'a', 'g', 'o']),
    (['e', 's', 't', 'e', ' ', 'a', 'n', 'o'], ['0', ' ', 'y', 'e', 'a', 'r', ' ', 'a', 'g', 'o']),
    (['e', 's', 't', 'e', ' ', 'm', 'e', 's'], ['0', ' ', 'm', 'o', 'n', 't', 'h', ' ', 'a', 'g', 'o']),
    (['a', 'm', 'a', 'n', 'h', 'a'], ['i', 'n', ' ', '1', ' ', 'd', 'a', 'y']),
    (['a', 'g', 'o', 'r', 'a'], ['0', ' ', 's', 'e', 'c', 'o', 'n', 'd', ' ', 'a', 'g', 'o']),
    (['o', 'n', 't', 'e', 'm'], ['1', ' ', 'd', 'a', 'y', ' ', 'a', 'g', 'o']),
    (['h', 'o', 'j', 'e'], ['0', ' ', 'd', 'a', 'y', ' ', 'a', 'g', 'o'])]
  relativeRegexes :=
   [(.seqs [.lit ['e', 'm', ' '], .grp 1 (.number), .lit [' ', 's', 'e', 'g', 'u', 'n', 'd', 'o', 's']], [.lit ['i', 'n', ' '], .ref 1, .lit [' ', 's', 'e', 'c', 'o', 'n', 'd']]),
    (.seqs [.lit ['h', 'a', ' '], .grp 1 (.number), .lit [' ', 's', 'e', 'g', 'u', 'n', 'd', 'o', 's']], [.ref 1, .lit [' ', 's', 'e', 'c', 'o', 'n', 'd', ' ', 'a', 'g', 'o']]),
    (.seqs [.lit ['e', 'm', ' '], .grp 1 (.number), .lit [' ', 'm', 'i', 'n', 'u', 't', 'o', 's']], [.lit ['i', 'n', ' '], .ref 1, .lit [' ', 'm', 'i', 'n', 'u', 't', 'e']]),
    (.seqs [.lit ['e', 'm', ' '], .grp 1 (.number), .lit [' ', 's', 'e', 'g', 'u', 'n', 'd', 'o']], [.lit ['i', 'n', ' '], .ref 1, .lit [' ', 's', 'e', 'c', 'o', 'n', 'd']]),
    (.seqs [.lit ['e', 'm', ' '], .grp 1 (.number), .lit [' ', 's', 'e', 'm', 'a', 'n', 'a', 's']], [.lit ['i', 'n', ' '], .ref 1, .lit [' ', 'w', 'e', 'e', 'k']]),
    (.seqs [.lit ['h', 'a', ' '], .grp 1 (.number), .lit [' ', 'm', 'i', 'n', 'u', 't', 'o', 's']], [.ref 1, .lit [' ', 'm', 'i', 'n', 'u', 't', 'e', ' ', 'a', 'g', 'o']]),
    (.seqs [.lit ['h', 'a', ' '], .grp 1 (.number), .lit [' ', 's', 'e', 'g', 'u', 'n', 'd', 'o']], [.ref 1, .lit [' ', 's', 'e', 'c', 'o', 'n', 'd', ' ', 'a', 'g', 'o']]),
    (.seqs [.lit ['h', 'a', ' '], .grp 1 (.number), .lit [' ', 's', 'e', 'm', 'a', 'n', 'a', 's']], [.ref 1, .lit [' ', 'w', 'e', 'e', 'k', ' ', 'a', 'g', 'o']]),
    (.seqs [.lit ['e', 'm', ' '], .grp 1 (.number), .lit [' ', 'm', 'i', 'n', 'u', 't', 'o']], [.lit ['i', 'n', ' '], .ref 1, .lit [' ', 'm', 'i', 'n', 'u', 't', 'e']]),
    (.seqs [.lit ['e', 'm', ' '], .grp 1 (.number), .lit [' ', 's', 'e', 'm', 'a', 'n', 'a']], [.lit ['i', 'n', ' '], .ref 1, .lit [' ', 'w', 'e', 'e', 'k']]),
    (.seqs [.lit ['h', 'a', ' '], .grp 1 (.number), .lit [' ', 'm', 'i', 'n', 'u', 't', 'o']], [.ref 1, .lit [' ', 'm', 'i', 'n', 'u', 't', 'e', ' ', 'a', 'g', 'o']]),
    (.seqs [.lit ['h', 'a', ' '], .grp 1 (.number), .lit [' ', 's', 'e', 'm', 'a', 'n', 'a']], [.ref 1, .lit [' ', 'w', 'e', 'e', 'k', ' ', 'a', 'g', 'o']]),
    (.seqs [.lit ['e', 'm', ' '], .grp 1 (.number), .lit [' ', 'h', 'o', 'r', 'a', 's']], [.lit ['i', 'n', ' '], .ref 1, .lit [' ', 'h', 'o', 'u', 'r']]),
    (.seqs [.lit ['e', 'm', ' '], .grp 1 (.number), .lit [' ', 'm', 'e', 's', 'e', 's']], [.lit ['i', 'n', ' '], .ref 1, .lit [' ', 'm', 'o', 'n', 't', 'h']]),
    (.seqs [.lit ['h', 'a', ' '], .grp 1 (.number), .lit [' ', 'h', 'o', 'r', 'a', 's']], [.ref 1, .lit [' ', 'h', 'o', 'u', 'r', ' ', 'a', 'g', 'o']]),
    (.seqs [.lit ['h', 'a', ' '], .grp 1 (.number), .lit [' ', 'm', 'e', 's', 'e', 's']], [.ref 1, .lit [' ', 'm', 'o', 'n', 't', 'h', ' ', 'a', 'g', 'o']]),
    (.seqs [.lit ['e', 'm', ' '], .grp 1 (.number), .lit [' ', 'a', 'n', 'o', 's']], [.lit ['i', 'n', ' '], .ref 1, .lit [' ', 'y', 'e', 'a', 'r']]),
    (.seqs [.lit ['e', 'm', ' '], .grp 1 (.number), .lit [' ', 'd', 'i', 'a', 's']], [.lit ['i', 'n', ' '], .ref 1, .lit [' ', 'd', 'a', 'y']]),
    (.seqs [.lit ['e', 'm', ' '], .grp 1 (.number), .lit [' ', 'h', 'o', 'r', 'a']], [.lit ['i', 'n', ' '], .ref 1, .lit [' ', 'h', 'o', 'u', 'r']]),
    (.seqs [.lit ['e', 'm', ' '], .grp 1 (.number), .lit [' ', 'm', 'i', 'n', 's']], [.lit ['i', 'n', ' '], .ref 1, .lit [' ', 'm', 'i', 'n', 'u', 't', 'e']]),
    (.seqs [.lit ['e', 'm', ' '], .grp 1 (.number), .lit [' ', 's', 'e', 'g', 's']], [.lit ['i', 'n', ' '], .ref 1, .lit [' ', 's', 'e', 'c', 'o', 'n', 'd']]),
    (.seqs [.lit ['h', 'a', ' '], .grp 1 (.number), .lit [' ', 'a', 'n', 'o', 's']], [.ref 1, .lit [' ', 'y', 'e', 'a', 'r', ' ', 'a', 'g', 'o']]),
    (.seqs [.lit ['h', 'a', ' '], .grp 1 (.number), .lit [' ', 'd', 'i', 'a', 's']], [.ref 1, .lit [' ', 'd', 'a', 'y', ' ', 'a', 'g', 'o']]),
    (.seqs [.lit ['h', 'a', ' '], .grp 1 (.number), .lit [' ', 'h', 'o', 'r', 'a']], [.ref 1, .lit [' ', 'h', 'o', 'u', 'r', ' ', 'a', 'g', 'o']]),
    (.seqs [.lit ['h', 'a', ' '], .grp 1 (.number), .lit [' ', 'm', 'i', 'n', 's']], [.ref 1, .lit [' ', 'm', 'i', 'n', 'u', 't', 'e', ' ', 'a', 'g', 'o']]),
    (.seqs [.lit ['e', 'm', ' '], .grp 1 (.number), .lit [' ', 'a', 'n', 'o']], [.lit ['i', 'n', ' '], .ref 1, .lit [' ', 'y', 'e', 'a', 'r']]),
    (.seqs [.lit ['e', 'm', ' '], .grp 1 (.number), .lit [' ', 'd', 'i', 'a']], [.lit ['i', 'n', ' '], .ref 1, .lit [' ', 'd', 'a', 'y']]),
    (.seqs [.lit ['e', 'm', ' '], .grp 1 (.number), .lit [' ', 'm', 'e', 's']], [.lit ['i', 'n', ' '], .ref 1, .lit [' ', 'm', 'o', 'n', 't', 'h']]),
    (.seqs [.lit ['e', 'm', ' '], .grp 1 (.number), .lit [' ', 'm', 'i', 'n']], [.lit ['i', 'n', ' '], .ref 1, .lit [' ', 'm', 'i', 'n', 'u', 't', 'e']]),
    (.seqs [.lit ['e', 'm', ' '], .grp 1 (.number), .lit [' ', 's', 'e', 'g']], [.lit ['i', 'n', ' '], .ref 1, .lit [' ', 's', 'e', 'c', 'o', 'n', 'd']]),
    (.seqs [.lit ['e', 'm', ' '], .grp 1 (.number), .lit [' ', 's', 'e', 'm']], [.lit ['i', 'n', ' '], .ref 1, .lit [' ', 'w', 'e', 'e', 'k']]),
    (.seqs [.lit ['h', 'a', ' '], .grp 1 (.number), .lit [' ', 'a', 'n', 'o']], [.ref 1, .lit [' ', 'y', 'e', 'a', 'r', ' ', 'a', 'g', 'o']]),
    (.seqs [.lit ['h', 'a', ' '], .grp 1 (.number), .lit [' ', 'd', 'i', 'a']], [.ref 1, .lit [' ', 'd', 'a', 'y', ' ', 'a', 'g', 'o']]),
    (.seqs [.lit ['h', 'a', ' '], .grp 1 (.number), .lit [' ', 'm', 'e', 's']], [.ref 1, .lit [' ', 'm', 'o', 'n', 't', 'h', ' ', 'a', 'g', 'o']]),
    (.seqs [.lit ['h', 'a', ' '], .grp 1 (.number), .lit [' ', 'm', 'i', 'n']], [.ref 1, .lit [' ', 'm', 'i', 'n', 'u', 't', 'e', ' ', 'a', 'g', 'o']]),
    (.seqs [.lit ['h', 'a', ' '], .grp 1 (.number), .lit [' ', 's', 'e', 'g']], [.ref 1, .lit [' ', 's', 'e', 'c', 'o', 'n', 'd', ' ', 'a', 'g', 'o']]),
    (.seqs [.lit ['h', 'a', ' '], .grp 1 (.number), .lit [' ', 's', 'e', 'm']], [.ref 1, .lit [' ', 'w', 'e', 'e', 'k', ' ', 'a', 'g', 'o']]),
    (.seqs [.lit ['e', 'm', ' '], .grp 1 (.number), .lit [' ', 'h']], [.lit ['i', 'n', ' '], .ref 1, .lit [' ', 'h', 'o', 'u', 'r']]),
    (.seqs [.lit ['h', 'a', ' '], .grp 1 (.number), .lit [' ', 'h']], [.ref 1, .lit [' ', 'h', 'o', 'u', 'r', ' ', 'a', 'g', 'o']])]
  rxCombined := some (.seqs [.grp 1 (.alts [.bos, .cls true [.letter, .mark, .digit], .lit ['_']]), .grp 2 (.alts [.seqs [.lit ['e', 'm', ' '], .number, .lit [' ', 's', 'e', 'g', 'u', 'n', 'd', 'o', 's']], .seqs [.lit ['h', 'a', ' '], .number, .lit [' ', 's', 'e', 'g', 'u', 'n', 'd', 'o', 's']], .seqs [.lit ['e', 'm', ' '], .number, .lit [' ', 'm', 'i', 'n', 'u', 't', 'o', 's']], .seqs [.lit ['e', 'm', ' '], .number, .lit [' ', 's', 'e', 'g', 'u', 'n', 'd', 'o']], .seqs [.lit ['e', 'm', ' '], .number, .lit [' ', 's', 'e', 'm', 'a', 'n', 'a', 's']], .seqs [.lit ['h', 'a', ' '], .number, .lit [' ', 'm', 'i', 'n', 'u', 't', 'o', 's']], .seqs [.lit ['h', 'a', ' '], .number, .lit [' ', 's', 'e', 'g', 'u', 'n', 'd', 'o']], .seqs [.lit ['h', 'a', ' '], .number, .lit [' ', 's', 'e', 'm', 'a', 'n', 'a', 's']], .seqs [.lit ['e', 'm', ' '], .number, .lit [' ', 'm', 'i', 'n', 'u', 't', 'o']], .seqs [.lit ['e', 'm', ' '], .number, .lit [' ', 's', 'e', 'm', 'a', 'n', 'a']], .seqs [.lit ['h', 'a', ' '], .number, .lit [' ', 'm', 'i', 'n', 'u', 't', 'o']], .seqs [.lit ['h', 'a', ' '], .number, .lit [' ', 's', 'e', 'm', 'a', 'n', 'a']], .seqs [.lit ['e', 'm', ' '], .number, .lit [' ', 'h', 'o', 'r', 'a', 's']], .seqs [.lit ['e', 'm', ' '], .number, .lit [' ', 'm', 'e', 's', 'e', 's']], .seqs [.lit ['h', 'a', ' '], .number, .lit [' ', 'h', 'o', 'r', 'a', 's']], .seqs [.lit ['h', 'a', ' '], .number, .lit [' ', 'm', 'e', 's', 'e', 's']], .seqs [.lit ['e', 'm', ' '], .number, .lit [' ', 'a', 'n', 'o', 's']], .seqs [.lit ['e', 'm', ' '], .number, .lit [' ', 'd', 'i', 'a', 's']], .seqs [.lit ['e', 'm', ' '], .number, .lit [' ', 'h', 'o', 'r', 'a']], .seqs [.lit ['e', 'm', ' '], .number, .lit [' ', 'm', 'i', 'n', 's']], .seqs [.lit ['e', 'm', ' '], .number, .lit [' ', 's', 'e', 'g', 's']], .seqs [.lit ['h', 'a', ' '], .number, .lit [' ', 'a', 'n', 'o', 's']], .seqs [.lit ['h', 'a', ' '], .number, .lit [' ', 'd', 'i', 'a', 's']], .seqs [.lit ['h', 'a', ' '], .number, .lit [' ', 'h', 'o', 'r', 'a']], .seqs [.lit ['h', 'a', ' '], .number, .lit [' ', 'm', 'i', 'n', 's']], .seqs [.lit ['e', 'm', ' '], .number, .lit [' ', 'a', 'n', 'o']], .seqs [.lit ['e', 'm', ' '], .number, .lit [' ', 'd', 'i', 'a']], .seqs [.lit ['e', 'm', ' '], .number, .lit [' ', 'm', 'e', 's']], .seqs [.lit ['e', 'm', ' '], .number, .lit [' ', 'm', 'i', 'n']], .seqs [.lit ['e', 'm', ' '], .number, .lit [' ', 's', 'e', 'g']], .seqs [.lit ['e', 'm', ' '], .number, .lit [' ', 's', 'e', 'm']], .seqs [.lit ['h', 'a', ' '], .number, .lit [' ', 'a', 'n', 'o']], .seqs [.lit ['h', 'a', ' '], .number, .lit [' ', 'd', 'i', 'a']], .seqs [.lit ['h', 'a', ' '], .number, .lit [' ', 'm', 'e', 's']], .seqs [.lit ['h', 'a', ' '], .number, .lit [' ', 'm', 'i', 'n']], .seqs [.lit ['h', 'a', ' '], .number, .lit [' ', 's', 'e', 'g']], .seqs [.lit ['h', 'a', ' '], .number, .lit [' ', 's', 'e', 'm']], .seqs [.lit ['e', 'm', ' '], .number, .lit [' ', 'h']], .seqs [.lit ['h', 'a', ' '], .number, .lit [' ', 'h']]]), .grp 3 (.alts [.eos, .cls true [.letter, .mark, .digit], .lit ['_']])], 3)
  rxExact := some (.seqs [.bos, .grp 1 (.alts [.seqs [.lit ['e', 'm', ' '], .number, .lit [' ', 's', 'e', 'g', 'u', 'n', 'd', 'o', 's']], .seqs [.lit ['h', 'a', ' '], .number, .lit [' ', 's', 'e', 'g', 'u', 'n', 'd', 'o', 's']], .seqs [.lit ['e', 'm', ' '], .number, .lit [' ', 'm', 'i', 'n', 'u', 't', 'o', 's']], .seqs [.lit ['e', 'm', ' '], .number, .lit [' ', 's', 'e', 'g', 'u', 'n', 'd', 'o']], .seqs [.lit ['e', 'm', ' '], .number, .lit [' ', 's', 'e', 'm', 'a', 'n', 'a', 's']], .seqs [.lit ['h', 'a', ' '], .number, .lit [' ', 'm', 'i', 'n', 'u', 't', 'o', 's']], .seqs [.lit ['h', 'a', ' '], .number, .lit [' ', 's', 'e', 'g', 'u', 'n', 'd', 'o']], .seqs [.lit ['h', 'a', ' '], .number, .lit [' ', 's', 'e', 'm', 'a', 'n', 'a', 's']], .seqs [.lit ['e', 'm', ' '], .number, .lit [' ', 'm', 'i', 'n', 'u', 't', 'o']], .seqs [.lit ['e', 'm', ' '], .number, .lit [' ', 's', 'e', 'm', 'a', 'n', 'a']], .seqs [.lit ['h', 'a', ' '], .number, .lit [' ', 'm', 'i', 'n', 'u', 't', 'o']], .seqs [.lit ['h', 'a', ' '], .number, .lit [' ', 's', 'e', 'm', 'a', 'n', 'a']], .seqs [.lit ['e', 'm', ' '], .number, .lit [' ', 'h', 'o', 'r', 'a', 's']], .seqs [.lit ['e', 'm', ' '], .number, .lit [' ', 'm', 'e', 's', 'e', 's']], .seqs [.lit ['h', 'a', ' '], .number, .lit [' ', 'h', 'o', 'r', 'a', 's']], .seqs [.lit ['h', 'a', ' '], .number, .lit [' ', 'm', 'e', 's', 'e', 's']], .seqs [.lit ['e', 'm', ' '], .number, .lit [' ', 'a', 'n', 'o', 's']], .seqs [.lit ['e', 'm', ' '], .number, .lit [' ', 'd', 'i', 'a', 's']], .seqs [.lit ['e', 'm', ' '], .number, .lit [' ', 'h', 'o', 'r', 'a']], .seqs [.lit ['e', 'm', ' '], .number, .lit [' ', 'm', 'i', 'n', 's']], .seqs [.lit ['e', 'm', ' '], .number, .lit [' ', 's', 'e', 'g', 's']], .seqs [.lit ['h', 'a', ' '], .number, .lit [' ', 'a', 'n', 'o', 's']], .seqs [.lit ['h', 'a', ' '], .number, .lit [' ', 'd', 'i', 'a', 's']], .seqs [.lit ['h', 'a', ' '], .number, .lit [' ', 'h', 'o', 'r', 'a']], .seqs [.lit ['h', 'a', ' '], .number, .lit [' ', 'm', 'i', 'n', 's']], .seqs [.lit ['e', 'm', ' '], .number, .lit [' ', 'a', 'n', 'o']], .seqs [.lit ['e', 'm', ' '], .number, .lit [' ', 'd', 'i', 'a']], .seqs [.lit ['e', 'm', ' '], .number, .lit [' ', 'm', 'e', 's']], .seqs [.lit ['e', 'm', ' '], .number, .lit [' ', 'm', 'i', 'n']], .seqs [.lit ['e', 'm', ' '], .number, .lit [' ', 's', 'e', 'g']], .seqs [.lit ['e', 'm', ' '], .number, .lit [' ', 's', 'e', 'm']], .seqs [.lit ['h', 'a', ' '], .number, .lit [' ', 'a', 'n', 'o']], .seqs [.lit ['h', 'a', ' '], .number, .lit [' ', 'd', 'i', 'a']], .seqs [.lit ['h', 'a', ' '], .number, .lit [' ', 'm', 'e', 's']], .seqs [.lit ['h', 'a', ' '], .number, .lit [' ', 'm', 'i', 'n']], .seqs [.lit ['h', 'a', ' '], .number, .lit [' ', 's', 'e', 'g']], .seqs [.lit ['h', 'a', ' '], .number, .lit [' ', 's', 'e', 'm']], .seqs [.lit ['e', 'm', ' '], .number, .lit [' ', 'h']], .seqs [.lit ['h', 'a', ' '], .number, .lit [' ', 'h']]]), .eos])
  knownWords :=
   [['p', 'r', 'o', 'x', 'i', 'm', 'a', ' ', 's', 'e', 'm', 'a', 'n', 'a'],
    ['s', 'e', 'm', 'a', 'n', 'a', ' ', 'p', 'a', 's', 's', 'a', 'd', 'a'],
    ['s', 'e', 'g', 'u', 'n', 'd', 'a', '-', 'f', 'e', 'i', 'r', 'a'],
    ['q', 'u', 'a', 'r', 't', 'a', '-', 'f', 'e', 'i', 'r', 'a'],
    ['q', 'u', 'i', 'n', 't', 'a', '-', 'f', 'e', 'i', 'r', 'a'],
    ['a', 'n', 'o', ' ', 'p', 'a', 's', 's', 'a', 'd', 'o'],
    ['e', 's', 't', 'a', ' ', 's', 'e', 'm', 'a', 'n', 'a'],
    ['e', 's', 't', 'e', ' ', 'm', 'i', 'n', 'u', 't', 'o'],
    ['m', 'e', 's', ' ', 'p', 'a', 's', 's', 'a', 'd', 'o'],
    ['p', 'r', 'o', 'x', 'i', 'm', 'o', ' ', 'a', 'n', 'o'],
    ['p', 'r', 'o', 'x', 'i', 'm', 'o', ' ', 'm', 'e', 's'],
    ['s', 'e', 'x', 't', 'a', '-', 'f', 'e', 'i', 'r', 'a'],
    ['t', 'e', 'r', 'c', 'a', '-', 'f', 'e', 'i', 'r', 'a'],
    ['a', 'n', 't', 'e', 'o', 'n', 't', 'e', 'm'],
    ['e', 's', 't', 'a', ' ', 'h', 'o', 'r', 'a'],
    ['f', 'e', 'v', 'e', 'r', 'e', 'i', 'r', 'o'],
    ['s', 'e', 'p', 't', 'e', 'm', 'b', 'r', 'o'],
    ['d', 'e', 'z', 'e', 'm', 'b', 'r', 'o'],
    ['e', 's', 't', 'e', ' ', 'a', 'n', 'o'],
    ['e', 's', 't', 'e', ' ', 'm', 'e', 's'],
    ['n', 'o', 'v', 'e', 'm', 'b', 'r', 'o'],
    ['s', 'e', 'g', 'u', 'n', 'd', 'o', 's'],
    ['s', 'e', 't', 'e', 'm', 'b', 'r', 'o'],
    ['d', 'o', 'm', 'i', 'n', 'g', 'o'],
    ['j', 'a', 'n', 'e', 'i', 'r', 'o'],
    ['m', 'i', 'n', 'u', 't', 'o', 's'],
    ['o', 'u', 't', 'u', 'b', 'r', 'o'],
    ['s', 'e', 'g', 'u', 'n', 'd', 'a'],
    ['s', 'e', 'g', 'u', 'n', 'd', 'o'],
    ['s', 'e', 'm', 'a', 'n', 'a', 's'],
    ['a', 'g', 'o', 's', 't', 'o'],
    ['a', 'm', 'a', 'n', 'h', 'a'],
    ['m', 'i', 'n', 'u', 't', 'o'],
    ['q', 'u', 'a', 'r', 't', 'a'],
    ['q', 'u', 'i', 'n', 't', 'a'],
    ['s', 'a', 'b', 'a', 'd', 'o'],
    ['s', 'e', 'm', 'a', 'n', 'a'],
    ['a', 'b', 'r', 'i', 'l'],
    ['a', 'g', 'o', 'r', 'a'],
    ['a', 't', 'r', 'a', 's'],
    ['c', 'e', 'r', 'c', 'a'],
    ['h', 'o', 'r', 'a', 's'],
    ['j', 'u', 'l', 'h', 'o'],
    ['j', 'u', 'n', 'h', 'o'],
    ['m', 'a', 'r', 'c', 'o'],
    ['m', 'e', 's', 'e', 's'],
    ['o', 'n', 't', 'e', 'm'],
    ['s', 'e', 'x', 't', 'a'],
    ['t', 'e', 'r', 'c', 'a'],
    ['a', 'n', 'o', 's'],
    ['d', 'i', 'a', 's'],
    ['h', 'o', 'j', 'e'],
    ['h', 'o', 'r', 'a'],
    ['m', 'a', 'i', 'o'],
    ['a', 'b', 'r'],
    ['a', 'g', 'o'],
    ['a', 'n', 'o'],
    ['d', 'e', 'z'],
    ['d', 'i', 'a'],
    ['d', 'o', 'm'],
    ['f', 'e', 'v'],
    ['g', 'm', 't'],
    ['j', 'a', 'n'],
    ['j', 'u', 'l'],
    ['j', 'u', 'n'],
    ['m', 'a', 'i'],
    ['m', 'a', 'r'],
    ['m', 'e', 's'],
    ['m', 'i', 'n'],
    ['n', 'o', 'v'],
    ['o', 'u', 't'],
    ['q', 'u', 'a'],
    ['q', 'u', 'i'],
    ['s', 'a', 'b'],
    ['s', 'e', 'g'],
    ['s', 'e', 'm'],
    ['s', 'e', 't'],
    ['s', 'e', 'x'],
    ['t', 'e', 'r'],
    ['u', 't', 'c'],
    ['a', 'm'],
    ['a', 's'],
    ['d', 'e'],
    ['e', 'm'],
    ['h', 'a'],
    ['p', 'm'],
    [' '],
    ['\''],
    ['+'],
    [','],
    ['-'],
    ['.'],
    ['/'],
    [':'],
    [';'],
    ['@'],
    ['['],
    [']'],
    ['e'],
    ['h'],
    ['m'],
    ['s'],
    ['z'],
    ['|']]

end Verif.Data
