import Verif.Data.Dicts
/-! GENERATED by tools/gen_pats.py from /repo/internal/data; do not edit. -/
set_option autoImplicit false
set_option maxRecDepth 100000
namespace Verif.Data
open Verif.Model

/-- internal/data/pt.go: `pt_GW_Locale`. -/
def pt_GWLang : LangData := { pt_GWDict with
  relativeRegexes :=
   [(.seqs [.lit ['d', 'e', 'n', 't', 'r', 'o', ' ', 'd', 'e', ' '], .grp 1 (.number), .lit [' ', 's', 'e', 'g', 'u', 'n', 'd', 'o', 's']], [.lit ['i', 'n', ' '], .ref 1, .lit [' ', 's', 'e', 'c', 'o', 'n', 'd']]),
    (.seqs [.lit ['d', 'e', 'n', 't', 'r', 'o', ' ', 'd', 'e', ' '], .grp 1 (.number), .lit [' ', 'm', 'i', 'n', 'u', 't', 'o', 's']], [.lit ['i', 'n', ' '], .ref 1, .lit [' ', 'm', 'i', 'n', 'u', 't', 'e']]),
    (.seqs [.lit ['d', 'e', 'n', 't', 'r', 'o', ' ', 'd', 'e', ' '], .grp 1 (.number), .lit [' ', 's', 'e', 'g', 'u', 'n', 'd', 'o']], [.lit ['i', 'n', ' '], .ref 1, .lit [' ', 's', 'e', 'c', 'o', 'n', 'd']]),
    (.seqs [.lit ['d', 'e', 'n', 't', 'r', 'o', ' ', 'd', 'e', ' '], .grp 1 (.number), .lit [' ', 's', 'e', 'm', 'a', 'n', 'a', 's']], [.lit ['i', 'n', ' '], .ref 1, .lit [' ', 'w', 'e', 'e', 'k']]),
    (.seqs [.lit ['d', 'e', 'n', 't', 'r', 'o', ' ', 'd', 'e', ' '], .grp 1 (.number), .lit [' ', 'm', 'i', 'n', 'u', 't', 'o']], [.lit ['i', 'n', ' '], .ref 1, .lit [' ', 'm', 'i', 'n', 'u', 't', 'e']]),
    (.seqs [.lit ['d', 'e', 'n', 't', 'r', 'o', ' ', 'd', 'e', ' '], .grp 1 (.number), .lit [' ', 's', 'e', 'm', 'a', 'n', 'a']], [.lit ['i', 'n', ' '], .ref 1, .lit [' ', 'w', 'e', 'e', 'k']]),
    (.seqs [.lit ['d', 'e', 'n', 't', 'r', 'o', ' ', 'd', 'e', ' '], .grp 1 (.number), .lit [' ', 'h', 'o', 'r', 'a', 's']], [.lit ['i', 'n', ' '], .ref 1, .lit [' ', 'h', 'o', 'u', 'r']]),
    (.seqs [.lit ['d', 'e', 'n', 't', 'r', 'o', ' ', 'd', 'e', ' '], .grp 1 (.number), .lit [' ', 'm', 'e', 's', 'e', 's']], [.lit ['i', 'n', ' '], .ref 1, .lit [' ', 'm', 'o', 'n', 't', 'h']]),
    (.seqs [.lit ['d', 'e', 'n', 't', 'r', 'o', ' ', 'd', 'e', ' '], .grp 1 (.number), .lit [' ', 'a', 'n', 'o', 's']], [.lit ['i', 'n', ' '], .ref 1, .lit [' ', 'y', 'e', 'a', 'r']]),
    (.seqs [.lit ['d', 'e', 'n', 't', 'r', 'o', ' ', 'd', 'e', ' '], .grp 1 (.number), .lit [' ', 'd', 'i', 'a', 's']], [.lit ['i', 'n', ' '], .ref 1, .lit [' ', 'd', 'a', 'y']]),
    (.seqs [.lit ['d', 'e', 'n', 't', 'r', 'o', ' ', 'd', 'e', ' '], .grp 1 (.number), .lit [' ', 'h', 'o', 'r', 'a']], [.lit ['i', 'n', ' '], .ref 1, .lit [' ', 'h', 'o', 'u', 'r']]),
    (.seqs [.lit ['d', 'e', 'n', 't', 'r', 'o', ' ', 'd', 'e', ' '], .grp 1 (.number), .lit [' ', 'a', 'n', 'o']], [.lit ['i', 'n', ' '], .ref 1, .lit [' ', 'y', 'e', 'a', 'r']]),
    (.seqs [.lit ['d', 'e', 'n', 't', 'r', 'o', ' ', 'd', 'e', ' '], .grp 1 (.number), .lit [' ', 'd', 'i', 'a']], [.lit ['i', 'n', ' '], .ref 1, .lit [' ', 'd', 'a', 'y']]),
    (.seqs [.lit ['d', 'e', 'n', 't', 'r', 'o', ' ', 'd', 'e', ' '], .grp 1 (.number), .lit [' ', 'm', 'e', 's']], [.lit ['i', 'n', ' '], .ref 1, .lit [' ', 'm', 'o', 'n', 't', 'h']]),
    (.seqs [.lit ['d', 'e', 'n', 't', 'r', 'o', ' ', 'd', 'e', ' '], .grp 1 (.number), .lit [' ', 'm', 'i', 'n']], [.lit ['i', 'n', ' '], .ref 1, .lit [' ', 'm', 'i', 'n', 'u', 't', 'e']]),
    (.seqs [.lit ['d', 'e', 'n', 't', 'r', 'o', ' ', 'd', 'e', ' '], .grp 1 (.number), .lit [' ', 's', 'e', 'm']], [.lit ['i', 'n', ' '], .ref 1, .lit [' ', 'w', 'e', 'e', 'k']]),
    (.seqs [.lit ['d', 'e', 'n', 't', 'r', 'o', ' ', 'd', 'e', ' '], .grp 1 (.number), .lit [' ', 'h']], [.lit ['i', 'n', ' '], .ref 1, .lit [' ', 'h', 'o', 'u', 'r']]),
    (.seqs [.lit ['d', 'e', 'n', 't', 'r', 'o', ' ', 'd', 'e', ' '], .grp 1 (.number), .lit [' ', 's']], [.lit ['i', 'n', ' '], .ref 1, .lit [' ', 's', 'e', 'c', 'o', 'n', 'd']]),
    (.seqs [.lit ['h', 'a', ' '], .grp 1 (.number), .lit [' ', 's']], [.ref 1, .lit [' ', 's', 'e', 'c', 'o', 'n', 'd', ' ', 'a', 'g', 'o']])],
  rxCombined := some (.seqs [.grp 1 (.alts [.bos, .cls true [.letter, .mark, .digit], .lit ['_']]), .grp 2 (.alts [.seqs [.lit ['d', 'e', 'n', 't', 'r', 'o', ' ', 'd', 'e', ' '], .number, .lit [' ', 's', 'e', 'g', 'u', 'n', 'd', 'o', 's']], .seqs [.lit ['d', 'e', 'n', 't', 'r', 'o', ' ', 'd', 'e', ' '], .number, .lit [' ', 'm', 'i', 'n', 'u', 't', 'o', 's']], .seqs [.lit ['d', 'e', 'n', 't', 'r', 'o', ' ', 'd', 'e', ' '], .number, .lit [' ', 's', 'e', 'g', 'u', 'n', 'd', 'o']], .seqs [.lit ['d', 'e', 'n', 't', 'r', 'o', ' ', 'd', 'e', ' '], .number, .lit [' ', 's', 'e', 'm', 'a', 'n', 'a', 's']], .seqs [.lit ['d', 'e', 'n', 't', 'r', 'o', ' ', 'd', 'e', ' '], .number, .lit [' ', 'm', 'i', 'n', 'u', 't', 'o']], .seqs [.lit ['d', 'e', 'n', 't', 'r', 'o', ' ', 'd', 'e', ' '], .number, .lit [' ', 's', 'e', 'm', 'a', 'n', 'a']], .seqs [.lit ['d', 'e', 'n', 't', 'r', 'o', ' ', 'd', 'e', ' '], .number, .lit [' ', 'h', 'o', 'r', 'a', 's']], .seqs [.lit ['d', 'e', 'n', 't', 'r', 'o', ' ', 'd', 'e', ' '], .number, .lit [' ', 'm', 'e', 's', 'e', 's']], .seqs [.lit ['d', 'e', 'n', 't', 'r', 'o', ' ', 'd', 'e', ' '], .number, .lit [' ', 'a', 'n', 'o', 's']], .seqs [.lit ['d', 'e', 'n', 't', 'r', 'o', ' ', 'd', 'e', ' '], .number, .lit [' ', 'd', 'i', 'a', 's']], .seqs [.lit ['d', 'e', 'n', 't', 'r', 'o', ' ', 'd', 'e', ' '], .number, .lit [' ', 'h', 'o', 'r', 'a']], .seqs [.lit ['d', 'e', 'n', 't', 'r', 'o', ' ', 'd', 'e', ' '], .number, .lit [' ', 'a', 'n', 'o']], .seqs [.lit ['d', 'e', 'n', 't', 'r', 'o', ' ', 'd', 'e', ' '], .number, .lit [' ', 'd', 'i', 'a']], .seqs [.lit ['d', 'e', 'n', 't', 'r', 'o', ' ', 'd', 'e', ' '], .number, .lit [' ', 'm', 'e', 's']], .seqs [.lit ['d', 'e', 'n', 't', 'r', 'o', ' ', 'd', 'e', ' '], .number, .lit [' ', 'm', 'i', 'n']], .seqs [.lit ['d', 'e', 'n', 't', 'r', 'o', ' ', 'd', 'e', ' '], .number, .lit [' ', 's', 'e', 'm']], .seqs [.lit ['d', 'e', 'n', 't', 'r', 'o', ' ', 'd', 'e', ' '], .number, .lit [' ', 'h']], .seqs [.lit ['d', 'e', 'n', 't', 'r', 'o', ' ', 'd', 'e', ' '], .number, .lit [' ', 's']], .seqs [.lit ['e', 'm', ' '], .number, .lit [' ', 's', 'e', 'g', 'u', 'n', 'd', 'o', 's']], .seqs [.lit ['h', 'a', ' '], .number, .lit [' ', 's', 'e', 'g', 'u', 'n', 'd', 'o', 's']], .seqs [.lit ['e', 'm', ' '], .number, .lit [' ', 'm', 'i', 'n', 'u', 't', 'o', 's']], .seqs [.lit ['e', 'm', ' '], .number, .lit [' ', 's', 'e', 'g', 'u', 'n', 'd', 'o']], .seqs [.lit ['e', 'm', ' '], .number, .lit [' ', 's', 'e', 'm', 'a', 'n', 'a', 's']], .seqs [.lit ['h', 'a', ' '], .number, .lit [' ', 'm', 'i', 'n', 'u', 't', 'o', 's']], .seqs [.lit ['h', 'a', ' '], .number, .lit [' ', 's', 'e', 'g', 'u', 'n', 'd', 'o']], .seqs [.lit ['h', 'a', ' '], .number, .lit [' ', 's', 'e', 'm', 'a', 'n', 'a', 's']], .seqs [.lit ['e', 'm', ' '], .number, .lit [' ', 'm', 'i', 'n', 'u', 't', 'o']], .seqs [.lit ['e', 'm', ' '], .number, .lit [' ', 's', 'e', 'm', 'a', 'n', 'a']], .seqs [.lit ['h', 'a', ' '], .number, .lit [' ', 'm', 'i', 'n', 'u', 't', 'o']], .seqs [.lit ['h', 'a', ' '], .number, .lit [' ', 's', 'e', 'm', 'a', 'n', 'a']], .seqs [.lit ['e', 'm', ' '], .number, .lit [' ', 'h', 'o', 'r', 'a', 's']], .seqs [.lit ['e', 'm', ' '], .number, .lit [' ', 'm', 'e', 's', 'e', 's']], .seqs [.lit ['h', 'a', ' '], .number, .lit [' ', 'h', 'o', 'r', 'a', 's']], .seqs [.lit ['h', 'a', ' '], .number, .lit [' ', 'm', 'e', 's', 'e', 's']], .seqs [.lit ['e', 'm', ' '], .number, .lit [' ', 'a', 'n', 'o', 's']], .seqs [.lit ['e', 'm', ' '], .number, .lit [' ', 'd', 'i', 'a', 's']], .seqs [.lit ['e', 'm', ' '], .number, .lit [' ', 'h', 'o', 'r', 'a']], .seqs [.lit ['e', 'm', ' '], .number, .lit [' ', 'm', 'i', 'n', 's']], .seqs [.lit ['e', 'm', ' '], .number, .lit [' ', 's', 'e', 'g', 's']], .seqs [.lit ['h', 'a', ' '], .number, .lit [' ', 'a', 'n', 'o', 's']], .seqs [.lit ['h', 'a', ' '], .number, .lit [' ', 'd', 'i', 'a', 's']], .seqs [.lit ['h', 'a', ' '], .number, .lit [' ', 'h', 'o', 'r', 'a']], .seqs [.lit ['h', 'a', ' '], .number, .lit [' ', 'm', 'i', 'n', 's']], .seqs [.lit ['e', 'm', ' '], .number, .lit [' ', 'a', 'n', 'o']], .seqs [.lit ['e', 'm', ' '], .number, .lit [' ', 'd', 'i', 'a']], .seqs [.lit ['e', 'm', ' '], .number, .lit [' ', 'm', 'e', 's']], .seqs [.lit ['e', 'm', ' '], .number, .lit [' ', 'm', 'i', 'n']], .seqs [.lit ['e', 'm', ' '], .number, .lit [' ', 's', 'e', 'g']], .seqs [.lit ['e', 'm', ' '], .number, .lit [' ', 's', 'e', 'm']], .seqs [.lit ['h', 'a', ' '], .number, .lit [' ', 'a', 'n', 'o']], .seqs [.lit ['h', 'a', ' '], .number, .lit [' ', 'd', 'i', 'a']], .seqs [.lit ['h', 'a', ' '], .number, .lit [' ', 'm', 'e', 's']], .seqs [.lit ['h', 'a', ' '], .number, .lit [' ', 'm', 'i', 'n']], .seqs [.lit ['h', 'a', ' '], .number, .lit [' ', 's', 'e', 'g']], .seqs [.lit ['h', 'a', ' '], .number, .lit [' ', 's', 'e', 'm']], .seqs [.lit ['e', 'm', ' '], .number, .lit [' ', 'h']], .seqs [.lit ['h', 'a', ' '], .number, .lit [' ', 'h']], .seqs [.lit ['h', 'a', ' '], .number, .lit [' ', 's']]]), .grp 3 (.alts [.eos, .cls true [.letter, .mark, .digit], .lit ['_']])], 3),
  rxExact := some (.seqs [.bos, .grp 1 (.alts [.seqs [.lit ['d', 'e', 'n', 't', 'r', 'o', ' ', 'd', 'e', ' '], .number, .lit [' ', 's', 'e', 'g', 'u', 'n', 'd', 'o', 's']], .seqs [.lit ['d', 'e', 'n', 't', 'r', 'o', ' ', 'd', 'e', ' '], .number, .lit [' ', 'm', 'i', 'n', 'u', 't', 'o', 's']], .seqs [.lit ['d', 'e', 'n', 't', 'r', 'o', ' ', 'd', 'e', ' '], .number, .lit [' ', 's', 'e', 'g', 'u', 'n', 'd', 'o']], .seqs [.lit ['d', 'e', 'n', 't', 'r', 'o', ' ', 'd', 'e', ' '], .number, .lit [' ', 's', 'e', 'm', 'a', 'n', 'a', 's']], .seqs [.lit ['d', 'e', 'n', 't', 'r', 'o', ' ', 'd', 'e', ' '], .number, .lit [' ', 'm', 'i', 'n', 'u', 't', 'o']], .seqs [.lit ['d', 'e', 'n', 't', 'r', 'o', ' ', 'd', 'e', ' '], .number, .lit [' ', 's', 'e', 'm', 'a', 'n', 'a']], .seqs [.lit ['d', 'e', 'n', 't', 'r', 'o', ' ', 'd', 'e', ' '], .number, .lit [' ', 'h', 'o', 'r', 'a', 's']], .seqs [.lit ['d', 'e', 'n', 't', 'r', 'o', ' ', 'd', 'e', ' '], .number, .lit [' ', 'm', 'e', 's', 'e', 's']], .seqs [.lit ['d', 'e', 'n', 't', 'r', 'o', ' ', 'd', 'e', ' '], .number, .lit [' ', 'a', 'n', 'o', 's']], .seqs [.lit ['d', 'e', 'n', 't', 'r', 'o', ' ', 'd', 'e', ' '], .number, .lit [' ', 'd', 'i', 'a', 's']], .seqs [.lit ['d', 'e', 'n', 't', 'r', 'o', ' ', 'd', 'e', ' '], .number, .lit [' ', 'h', 'o', 'r', 'a']], .seqs [.lit ['d', 'e', 'n', 't', 'r', 'o', ' ', 'd', 'e', ' '], .number, .lit [' ', 'a', 'n', 'o']], .seqs [.lit ['d', 'e', 'n', 't', 'r', 'o', ' ', 'd', 'e', ' '], .number, .lit [' ', 'd', 'i', 'a']], .seqs [.lit ['d', 'e', 'n', 't', 'r', 'o', ' ', 'd', 'e', ' '], .number, .lit [' ', 'm', 'e', 's']], .seqs [.lit ['d', 'e', 'n', 't', 'r', 'o', ' ', 'd', 'e', ' '], .number, .lit [' ', 'm', 'i', 'n']], .seqs [.lit ['d', 'e', 'n', 't', 'r', 'o', ' ', 'd', 'e', ' '], .number, .lit [' ', 's', 'e', 'm']], .seqs [.lit ['d', 'e', 'n', 't', 'r', 'o', ' ', 'd', 'e', ' '], .number, .lit [' ', 'h']], .seqs [.lit ['d', 'e', 'n', 't', 'r', 'o', ' ', 'd', 'e', ' '], .number, .lit [' ', 's']], .seqs [.lit ['e', 'm', ' '], .number, .lit [' ', 's', 'e', 'g', 'u', 'n', 'd', 'o', 's']], .seqs [.lit ['h', 'a', ' '], .number, .lit [' ', 's', 'e', 'g', 'u', 'n', 'd', 'o', 's']], .seqs [.lit ['e', 'm', ' '], .number, .lit [' ', 'm', 'i', 'n', 'u', 't', 'o', 's']], .seqs [.lit ['e', 'm', ' '], .number, .lit [' ', 's', 'e', 'g', 'u', 'n', 'd', 'o']], .seqs [.lit ['e', 'm', ' '], .number, .lit [' ', 's', 'e', 'm', 'a', 'n', 'a', 's']], .seqs [.lit ['h', 'a', ' '], .number, .lit [' ', 'm', 'i', 'n', 'u', 't', 'o', 's']], .seqs [.lit ['h', 'a', ' '], .number, .lit [' ', 's', 'e', 'g', 'u', 'n', 'd', 'o']], .seqs [.lit ['h', 'a', ' '], .number, .lit [' ', 's', 'e', 'm', 'a', 'n', 'a', 's']], .seqs [.lit ['e', 'm', ' '], .number, .lit [' ', 'm', 'i', 'n', 'u', 't', 'o']], .seqs [.lit ['e', 'm', ' '], .number, .lit [' ', 's', 'e', 'm', 'a', 'n', 'a']], .seqs [.lit ['h', 'a', ' '], .number, .lit [' ', 'm', 'i', 'n', 'u', 't', 'o']], .seqs [.lit ['h', 'a', ' '], .number, .lit [' ', 's', 'e', 'm', 'a', 'n', 'a']], .seqs [.lit ['e', 'm', ' '], .number, .lit [' ', 'h', 'o', 'r', 'a', 's']], .seqs [.lit ['e', 'm', ' '], .number, .lit [' ', 'm', 'e', 's', 'e', 's']], .seqs [.lit ['h', 'a', ' '], .number, .lit [' ', 'h', 'o', 'r', 'a', 's']], .seqs [.lit ['h', 'a', ' '], .number, .lit [' ', 'm', 'e', 's', 'e', 's']], .seqs [.lit ['e', 'm', ' '], .number, .lit [' ', 'a', 'n', 'o', 's']], .seqs [.lit ['e', 'm', ' '], .number, .lit [' ', 'd', 'i', 'a', 's']], .seqs [.lit ['e', 'm', ' '], .number, .lit [' ', 'h', 'o', 'r', 'a']], .seqs [.lit ['e', 'm', ' '], .number, .lit [' ', 'm', 'i', 'n', 's']], .seqs [.lit ['e', 'm', ' '], .number, .lit [' ', 's', 'e', 'g', 's']], .seqs [.lit ['h', 'a', ' '], .number, .lit [' ', 'a', 'n', 'o', 's']], .seqs [.lit ['h', 'a', ' '], .number, .lit [' ', 'd', 'i', 'a', 's']], .seqs [.lit ['h', 'a', ' '], .number, .lit [' ', 'h', 'o', 'r', 'a']], .seqs [.lit ['h', 'a', ' '], .number, .lit [' ', 'm', 'i', 'n', 's']], .seqs [.lit ['e', 'm', ' '], .number, .lit [' ', 'a', 'n', 'o']], .seqs [.lit ['e', 'm', ' '], .number, .lit [' ', 'd', 'i', 'a']], .seqs [.lit ['e', 'm', ' '], .number, .lit [' ', 'm', 'e', 's']], .seqs [.lit ['e', 'm', ' '], .number, .lit [' ', 'm', 'i', 'n']], .seqs [.lit ['e', 'm', ' '], .number, .lit [' ', 's', 'e', 'g']], .seqs [.lit ['e', 'm', ' '], .number, .lit [' ', 's', 'e', 'm']], .seqs [.lit ['h', 'a', ' '], .number, .lit [' ', 'a', 'n', 'o']], .seqs [.lit ['h', 'a', ' '], .number, .lit [' ', 'd', 'i', 'a']], .seqs [.lit ['h', 'a', ' '], .number, .lit [' ', 'm', 'e', 's']], .seqs [.lit ['h', 'a', ' '], .number, .lit [' ', 'm', 'i', 'n']], .seqs [.lit ['h', 'a', ' '], .number, .lit [' ', 's', 'e', 'g']], .seqs [.lit ['h', 'a', ' '], .number, .lit [' ', 's', 'e', 'm']], .seqs [.lit ['e', 'm', ' '], .number, .lit [' ', 'h']], .seqs [.lit ['h', 'a', ' '], .number, .lit [' ', 'h']], .seqs [.lit ['h', 'a', ' '], .number, .lit [' ', 's']]]), .eos]),
  knownWords :=
   [['p', 'r', 'o', 'x', 'i', 'm', 'a', ' ', 's', 'e', 'm', 'a', 'n', 'a'], ['s', 'e', 'm', 'a', 'n', 'a', ' ', 'p', 'a', 's', 's', 'a', 'd', 'a'], ['s', 'e', 'g', 'u', 'n', 'd', 'a', '-', 'f', 'e', 'i', 'r', 'a'], ['q', 'u', 'a', 'r', 't', 'a', '-', 'f', 'e', 'i', 'r', 'a'], ['q', 'u', 'i', 'n', 't', 'a', '-', 'f', 'e', 'i', 'r', 'a'], ['a', 'n', 'o', ' ', 'p', 'a', 's', 's', 'a', 'd', 'o'], ['e', 's', 't', 'a', ' ', 's', 'e', 'm', 'a', 'n', 'a'], ['e', 's', 't', 'e', ' ', 'm', 'i', 'n', 'u', 't', 'o'], ['m', 'e', 's', ' ', 'p', 'a', 's', 's', 'a', 'd', 'o'], ['p', 'r', 'o', 'x', 'i', 'm', 'o', ' ', 'a', 'n', 'o'], ['p', 'r', 'o', 'x', 'i', 'm', 'o', ' ', 'm', 'e', 's'], ['s', 'e', 'x', 't', 'a', '-', 'f', 'e', 'i', 'r', 'a'], ['t', 'e', 'r', 'c', 'a', '-', 'f', 'e', 'i', 'r', 'a'], ['a', 'n', 't', 'e', 'o', 'n', 't', 'e', 'm'], ['e', 's', 't', 'a', ' ', 'h', 'o', 'r', 'a'], ['f', 'e', 'v', 'e', 'r', 'e', 'i', 'r', 'o'], ['s', 'e', 'p', 't', 'e', 'm', 'b', 'r', 'o'], ['d', 'a', ' ', 'm', 'a', 'n', 'h', 'a'], ['d', 'a', ' ', 't', 'a', 'r', 'd', 'e'], ['d', 'e', 'z', 'e', 'm', 'b', 'r', 'o'], ['e', 's', 't', 'e', ' ', 'a', 'n', 'o'], ['e', 's', 't', 'e', ' ', 'm', 'e', 's'], ['n', 'o', 'v', 'e', 'm', 'b', 'r', 'o'], ['s', 'e', 'g', 'u', 'n', 'd', 'o', 's'], ['s', 'e', 't', 'e', 'm', 'b', 'r', 'o'], ['d', 'o', 'm', 'i', 'n', 'g', 'o'], ['j', 'a', 'n', 'e', 'i', 'r', 'o'], ['m', 'i', 'n', 'u', 't', 'o', 's'], ['o', 'u', 't', 'u', 'b', 'r', 'o'], ['s', 'e', 'g', 'u', 'n', 'd', 'a'], ['s', 'e', 'g', 'u', 'n', 'd', 'o'], ['s', 'e', 'm', 'a', 'n', 'a', 's'], ['a', 'g', 'o', 's', 't', 'o'], ['a', 'm', 'a', 'n', 'h', 'a'], ['m', 'i', 'n', 'u', 't', 'o'], ['q', 'u', 'a', 'r', 't', 'a'], ['q', 'u', 'i', 'n', 't', 'a'], ['s', 'a', 'b', 'a', 'd', 'o'], ['s', 'e', 'm', 'a', 'n', 'a'], ['a', 'b', 'r', 'i', 'l'], ['a', 'g', 'o', 'r', 'a'], ['a', 't', 'r', 'a', 's'], ['c', 'e', 'r', 'c', 'a'], ['h', 'o', 'r', 'a', 's'], ['j', 'u', 'l', 'h', 'o'], ['j', 'u', 'n', 'h', 'o'], ['m', 'a', 'n', 'h', 'a'], ['m', 'a', 'r', 'c', 'o'], ['m', 'e', 's', 'e', 's'], ['o', 'n', 't', 'e', 'm'], ['s', 'e', 'x', 't', 'a'], ['t', 'a', 'r', 'd', 'e'], ['t', 'e', 'r', 'c', 'a'], ['a', 'n', 'o', 's'], ['d', 'i', 'a', 's'], ['h', 'o', 'j', 'e'], ['h', 'o', 'r', 'a'], ['m', 'a', 'i', 'o'], ['a', 'b', 'r'], ['a', 'g', 'o'], ['a', 'n', 'o'], ['d', 'e', 'z'], ['d', 'i', 'a'], ['d', 'o', 'm'], ['f', 'e', 'v'], ['g', 'm', 't'], ['j', 'a', 'n'], ['j', 'u', 'l'], ['j', 'u', 'n'], ['m', 'a', 'i'], ['m', 'a', 'r'], ['m', 'e', 's'], ['m', 'i', 'n'], ['n', 'o', 'v'], ['o', 'u', 't'], ['q', 'u', 'a'], ['q', 'u', 'i'], ['s', 'a', 'b'], ['s', 'e', 'g'], ['s', 'e', 'm'], ['s', 'e', 't'], ['s', 'e', 'x'], ['t', 'e', 'r'], ['u', 't', 'c'], ['a', 'm'], ['a', 's'], ['d', 'e'], ['e', 'm'], ['h', 'a'], ['p', 'm'], [' '], ['\''], ['+'], [','], ['-'], ['.'], ['/'], [':'], [';'], ['@'], ['['], [']'], ['e'], ['h'], ['m'], ['s'], ['z'], ['|']] }

/-- internal/data/pt.go: `pt_LU_Locale`. -/
def pt_LULang : LangData := { pt_LUDict with
  relativeRegexes :=
   [(.seqs [.lit ['d', 'e', 'n', 't', 'r', 'o', ' ', 'd', 'e', ' '], .grp 1 (.number), .lit [' ', 's', 'e', 'g', 'u', 'n', 'd', 'o', 's']], [.lit ['i', 'n', ' '], .ref 1, .lit [' ', 's', 'e', 'c', 'o', 'n', 'd']]),
    (.seqs [.lit ['d', 'e', 'n', 't', 'r', 'o', ' ', 'd', 'e', ' '], .grp 1 (.number), .lit [' ', 'm', 'i', 'n', 'u', 't', 'o', 's']], [.lit ['i', 'n', ' '], .ref 1, .lit [' ', 'm', 'i', 'n', 'u', 't', 'e']]),
    (.seqs [.lit ['d', 'e', 'n', 't', 'r', 'o', ' ', 'd', 'e', ' '], .grp 1 (.number), .lit [' ', 's', 'e', 'g', 'u', 'n', 'd', 'o']], [.lit ['i', 'n', ' '], .ref 1, .lit [' ', 's', 'e', 'c', 'o', 'n', 'd']]),
    (.seqs [.lit ['d', 'e', 'n', 't', 'r', 'o', ' ', 'd', 'e', ' '], .grp 1 (.number), .lit [' ', 's', 'e', 'm', 'a', 'n', 'a', 's']], [.lit ['i', 'n', ' '], .ref 1, .lit [' ', 'w', 'e', 'e', 'k']]),
    (.seqs [.lit ['d', 'e', 'n', 't', 'r', 'o', ' ', 'd', 'e', ' '], .grp 1 (.number), .lit [' ', 'm', 'i', 'n', 'u', 't', 'o']], [.lit ['i', 'n', ' '], .ref 1, .lit [' ', 'm', 'i', 'n', 'u', 't', 'e']]),
    (.seqs [.lit ['d', 'e', 'n', 't', 'r', 'o', ' ', 'd', 'e', ' '], .grp 1 (.number), .lit [' ', 's', 'e', 'm', 'a', 'n', 'a']], [.lit ['i', 'n', ' '], .ref 1, .lit [' ', 'w', 'e', 'e', 'k']]),
    (.seqs [.lit ['d', 'e', 'n', 't', 'r', 'o', ' ', 'd', 'e', ' '], .grp 1 (.number), .lit [' ', 'h', 'o', 'r', 'a', 's']], [.lit ['i', 'n', ' '], .ref 1, .lit [' ', 'h', 'o', 'u', 'r']]),
    (.seqs [.lit ['d', 'e', 'n', 't', 'r', 'o', ' ', 'd', 'e', ' '], .grp 1 (.number), .lit [' ', 'm', 'e', 's', 'e', 's']], [.lit ['i', 'n', ' '], .ref 1, .lit [' ', 'm', 'o', 'n', 't', 'h']]),
    (.seqs [.lit ['d', 'e', 'n', 't', 'r', 'o', ' ', 'd', 'e', ' '], .grp 1 (.number), .lit [' ', 'a', 'n', 'o', 's']], [.lit ['i', 'n', ' '], .ref 1, .lit [' ', 'y', 'e', 'a', 'r']]),
    (.seqs [.lit ['d', 'e', 'n', 't', 'r', 'o', ' ', 'd', 'e', ' '], .grp 1 (.number), .lit [' ', 'd', 'i', 'a', 's']], [.lit ['i', 'n', ' '], .ref 1, .lit [' ', 'd', 'a', 'y']]),
    (.seqs [.lit ['d', 'e', 'n', 't', 'r', 'o', ' ', 'd', 'e', ' '], .grp 1 (.number), .lit [' ', 'h', 'o', 'r', 'a']], [.lit ['i', 'n', ' '], .ref 1, .lit [' ', 'h', 'o', 'u', 'r']]),
    (.seqs [.lit ['d', 'e', 'n', 't', 'r', 'o', ' ', 'd', 'e', ' '], .grp 1 (.number), .lit [' ', 'a', 'n', 'o']], [.lit ['i', 'n', ' '], .ref 1, .lit [' ', 'y', 'e', 'a', 'r']]),
    (.seqs [.lit ['d', 'e', 'n', 't', 'r', 'o', ' ', 'd', 'e', ' '], .grp 1 (.number), .lit [' ', 'd', 'i', 'a']], [.lit ['i', 'n', ' '], .ref 1, .lit [' ', 'd', 'a', 'y']]),
    (.seqs [.lit ['d', 'e', 'n', 't', 'r', 'o', ' ', 'd', 'e', ' '], .grp 1 (.number), .lit [' ', 'm', 'e', 's']], [.lit ['i', 'n', ' '], .ref 1, .lit [' ', 'm', 'o', 'n', 't', 'h']]),
    (.seqs [.lit ['d', 'e', 'n', 't', 'r', 'o', ' ', 'd', 'e', ' '], .grp 1 (.number), .lit [' ', 'm', 'i', 'n']], [.lit ['i', 'n', ' '], .ref 1, .lit [' ', 'm', 'i', 'n', 'u', 't', 'e']]),
    (.seqs [.lit ['d', 'e', 'n', 't', 'r', 'o', ' ', 'd', 'e', ' '], .grp 1 (.number), .lit [' ', 's', 'e', 'm']], [.lit ['i', 'n', ' '], .ref 1, .lit [' ', 'w', 'e', 'e', 'k']]),
    (.seqs [.lit ['d', 'e', 'n', 't', 'r', 'o', ' ', 'd', 'e', ' '], .grp 1 (.number), .lit [' ', 'h']], [.lit ['i', 'n', ' '], .ref 1, .lit [' ', 'h', 'o', 'u', 'r']]),
    (.seqs [.lit ['d', 'e', 'n', 't', 'r', 'o', ' ', 'd', 'e', ' '], .grp 1 (.number), .lit [' ', 's']], [.lit ['i', 'n', ' '], .ref 1, .lit [' ', 's', 'e', 'c', 'o', 'n', 'd']]),
    (.seqs [.lit ['h', 'a', ' '], .grp 1 (.number), .lit [' ', 's']], [.ref 1, .lit [' ', 's', 'e', 'c', 'o', 'n', 'd', ' ', 'a', 'g', 'o']])],
  rxCombined := some (.seqs [.grp 1 (.alts [.bos, .cls true [.letter, .mark, .digit], .lit ['_']]), .grp 2 (.alts [.seqs [.lit ['d', 'e', 'n', 't', 'r', 'o', ' ', 'd', 'e', ' '], .number, .lit [' ', 's', 'e', 'g', 'u', 'n', 'd', 'o', 's']], .seqs [.lit ['d', 'e', 'n', 't', 'r', 'o', ' ', 'd', 'e', ' '], .number, .lit [' ', 'm', 'i', 'n', 'u', 't', 'o', 's']], .seqs [.lit ['d', 'e', 'n', 't', 'r', 'o', ' ', 'd', 'e', ' '], .number, .lit [' ', 's', 'e', 'g', 'u', 'n', 'd', 'o']], .seqs [.lit ['d', 'e', 'n', 't', 'r', 'o', ' ', 'd', 'e', ' '], .number, .lit [' ', 's', 'e', 'm', 'a', 'n', 'a', 's']], .seqs [.lit ['d', 'e', 'n', 't', 'r', 'o', ' ', 'd', 'e', ' '], .number, .lit [' ', 'm', 'i', 'n', 'u', 't', 'o']], .seqs [.lit ['d', 'e', 'n', 't', 'r', 'o', ' ', 'd', 'e', ' '], .number, .lit [' ', 's', 'e', 'm', 'a', 'n', 'a']], .seqs [.lit ['d', 'e', 'n', 't', 'r', 'o', ' ', 'd', 'e', ' '], .number, .lit [' ', 'h', 'o', 'r', 'a', 's']], .seqs [.lit ['d', 'e', 'n', 't', 'r', 'o', ' ', 'd', 'e', ' '], .number, .lit [' ', 'm', 'e', 's', 'e', 's']], .seqs [.lit ['d', 'e', 'n', 't', 'r', 'o', ' ', 'd', 'e', ' '], .number, .lit [' ', 'a', 'n', 'o', 's']], .seqs [.lit ['d', 'e', 'n', 't', 'r', 'o', ' ', 'd', 'e', ' '], .number, .lit [' ', 'd', 'i', 'a', 's']], .seqs [.lit ['d', 'e', 'n', 't', 'r', 'o', ' ', 'd', 'e', ' '], .number, .lit [' ', 'h', 'o', 'r', 'a']], .seqs [.lit ['d', 'e', 'n', 't', 'r', 'o', ' ', 'd', 'e', ' '], .number, .lit [' ', 'a', 'n', 'o']], .seqs [.lit ['d', 'e', 'n', 't', 'r', 'o', ' ', 'd', 'e', ' '], .number, .lit [' ', 'd', 'i', 'a']], .seqs [.lit ['d', 'e', 'n', 't', 'r', 'o', ' ', 'd', 'e', ' '], .number, .lit [' ', 'm', 'e', 's']], .seqs [.lit ['d', 'e', 'n', 't', 'r', 'o', ' ', 'd', 'e', ' '], .number, .lit [' ', 'm', 'i', 'n']], .seqs [.lit ['d', 'e', 'n', 't', 'r', 'o', ' ', 'd', 'e', ' '], .number, .lit [' ', 's', 'e', 'm']], .seqs [.lit ['d', 'e', 'n', 't', 'r', 'o', ' ', 'd', 'e', ' '], .number, .lit [' ', 'h']], .seqs [.lit ['d', 'e', 'n', 't', 'r', 'o', ' ', 'd', 'e', ' '], .number, .lit [' ', 's']], .seqs [.lit ['e', 'm', ' '], .number, .lit [' ', 's', 'e', 'g', 'u', 'n', 'd', 'o', 's']], .seqs [.lit ['h', 'a', ' '], .number, .lit [' ', 's', 'e', 'g', 'u', 'n', 'd', 'o', 's']], .seqs [.lit ['e', 'm', ' '], .number, .lit [' ', 'm', 'i', 'n', 'u', 't', 'o', 's']], .seqs [.lit ['e', 'm', ' '], .number, .lit [' ', 's', 'e', 'g', 'u', 'n', 'd', 'o']], .seqs [.lit ['e', 'm', ' '], .number, .lit [' ', 's', 'e', 'm', 'a', 'n', 'a', 's']], .seqs [.lit ['h', 'a', ' '], .number, .lit [' ', 'm', 'i', 'n', 'u', 't', 'o', 's']], .seqs [.lit ['h', 'a', ' '], .number, .lit [' ', 's', 'e', 'g', 'u', 'n', 'd', 'o']], .seqs [.lit ['h', 'a', ' '], .number, .lit [' ', 's', 'e', 'm', 'a', 'n', 'a', 's']], .seqs [.lit ['e', 'm', ' '], .number, .lit [' ', 'm', 'i', 'n', 'u', 't', 'o']], .seqs [.lit ['e', 'm', ' '], .number, .lit [' ', 's', 'e', 'm', 'a', 'n', 'a']], .seqs [.lit ['h', 'a', ' '], .number, .lit [' ', 'm', 'i', 'n', 'u', 't', 'o']], .seqs [.lit ['h', 'a', ' '], .number, .lit [' ', 's', 'e', 'm', 'a', 'n', 'a']], .seqs [.lit ['e', 'm', ' '], .number, .lit [' ', 'h', 'o', 'r', 'a', 's']], .seqs [.lit ['e', 'm', ' '], .number, .lit [' ', 'm', 'e', 's', 'e', 's']], .seqs [.lit ['h', 'a', ' '], .number, .lit [' ', 'h', 'o', 'r', 'a', 's']], .seqs [.lit ['h', 'a', ' '], .number, .lit [' ', 'm', 'e', 's', 'e', 's']], .seqs [.lit ['e', 'm', ' '], .number, .lit [' ', 'a', 'n', 'o', 's']], .seqs [.lit ['e', 'm', ' '], .number, .lit [' ', 'd', 'i', 'a', 's']], .seqs [.lit ['e', 'm', ' '], .number, .lit [' ', 'h', 'o', 'r', 'a']], .seqs [.lit ['e', 'm', ' '], .number, .lit [' ', 'm', 'i', 'n', 's']], .seqs [.lit ['e', 'm', ' '], .number, .lit [' ', 's', 'e', 'g', 's']], .seqs [.lit ['h', 'a', ' '], .number, .lit [' ', 'a', 'n', 'o', 's']], .seqs [.lit ['h', 'a', ' '], .number, .lit [' ', 'd', 'i', 'a', 's']], .seqs [.lit ['h', 'a', ' '], .number, .lit [' ', 'h', 'o', 'r', 'a']], .seqs [.lit ['h', 'a', ' '], .number, .lit [' ', 'm', 'i', 'n', 's']], .seqs [.lit ['e', 'm', ' '], .number, .lit [' ', 'a', 'n', 'o']], .seqs [.lit ['e', 'm', ' '], .number, .lit [' ', 'd', 'i', 'a']], .seqs [.lit ['e', 'm', ' '], .number, .lit [' ', 'm', 'e', 's']], .seqs [.lit ['e', 'm', ' '], .number, .lit [' ', 'm', 'i', 'n']], .seqs [.lit ['e', 'm', ' '], .number, .lit [' ', 's', 'e', 'g']], .seqs [.lit ['e', 'm', ' '], .number, .lit [' ', 's', 'e', 'm']], .seqs [.lit ['h', 'a', ' '], .number, .lit [' ', 'a', 'n', 'o']], .seqs [.lit ['h', 'a', ' '], .number, .lit [' ', 'd', 'i', 'a']], .seqs [.lit ['h', 'a', ' '], .number, .lit [' ', 'm', 'e', 's']], .seqs [.lit ['h', 'a', ' '], .number, .lit [' ', 'm', 'i', 'n']], .seqs [.lit ['h', 'a', ' '], .number, .lit [' ', 's', 'e', 'g']], .seqs [.lit ['h', 'a', ' '], .number, .lit [' ', 's', 'e', 'm']], .seqs [.lit ['e', 'm', ' '], .number, .lit [' ', 'h']], .seqs [.lit ['h', 'a', ' '], .number, .lit [' ', 'h']], .seqs [.lit ['h', 'a', ' '], .number, .lit [' ', 's']]]), .grp 3 (.alts [.eos, .cls true [.letter, .mark, .digit], .lit ['_']])], 3),
  rxExact := some (.seqs [.bos, .grp 1 (.alts [.seqs [.lit ['d', 'e', 'n', 't', 'r', 'o', ' ', 'd', 'e', ' '], .number, .lit [' ', 's', 'e', 'g', 'u', 'n', 'd', 'o', 's']], .seqs [.lit ['d', 'e', 'n', 't', 'r', 'o', ' ', 'd', 'e', ' '], .number, .lit [' ', 'm', 'i', 'n', 'u', 't', 'o', 's']], .seqs [.lit ['d', 'e', 'n', 't', 'r', 'o', ' ', 'd', 'e', ' '], .number, .lit [' ', 's', 'e', 'g', 'u', 'n', 'd', 'o']], .seqs [.lit ['d', 'e', 'n', 't', 'r', 'o', ' ', 'd', 'e', ' '], .number, .lit [' ', 's', 'e', 'm', 'a', 'n', 'a', 's']], .seqs [.lit ['d', 'e', 'n', 't', 'r', 'o', ' ', 'd', 'e', ' '], .number, .lit [' ', 'm', 'i', 'n', 'u', 't', 'o']], .seqs [.lit ['d', 'e', 'n', 't', 'r', 'o', ' ', 'd', 'e', ' '], .number, .lit [' ', 's', 'e', 'm', 'a', 'n', 'a']], .seqs [.lit ['d', 'e', 'n', 't', 'r', 'o', ' ', 'd', 'e', ' '], .number, .lit [' ', 'h', 'o', 'r', 'a', 's']], .seqs [.lit ['d', 'e', 'n', 't', 'r', 'o', ' ', 'd', 'e', ' '], .number, .lit [' ', 'm', 'e', 's', 'e', 's']], .seqs [.lit ['d', 'e', 'n', 't', 'r', 'o', ' ', 'd', 'e', ' '], .number, .lit [' ', 'a', 'n', 'o', 's']], .seqs [.lit ['d', 'e', 'n', 't', 'r', 'o', ' ', 'd', 'e', ' '], .number, .lit [' ', 'd', 'i', 'a', 's']], .seqs [.lit ['d', 'e', 'n', 't', 'r', 'o', ' ', 'd', 'e', ' '], .number, .lit [' ', 'h', 'o', 'r', 'a']], .seqs [.lit ['d', 'e', 'n', 't', 'r', 'o', ' ', 'd', 'e', ' '], .number, .lit [' ', 'a', 'n', 'o']], .seqs [.lit ['d', 'e', 'n', 't', 'r', 'o', ' ', 'd', 'e', ' '], .number, .lit [' ', 'd', 'i', 'a']], .seqs [.lit ['d', 'e', 'n', 't', 'r', 'o', ' ', 'd', 'e', ' '], .number, .lit [' ', 'm', 'e', 's']], .seqs [.lit ['d', 'e', 'n', 't', 'r', 'o', ' ', 'd', 'e', ' '], .number, .lit [' ', 'm', 'i', 'n']], .seqs [.lit ['d', 'e', 'n', 't', 'r', 'o', ' ', 'd', 'e', ' '], .number, .lit [' ', 's', 'e', 'm']], .seqs [.lit ['d', 'e', 'n', 't', 'r', 'o', ' ', 'd', 'e', ' '], .number, .lit [' ', 'h']], .seqs [.lit ['d', 'e', 'n', 't', 'r', 'o', ' ', 'd', 'e', ' '], .number, .lit [' ', 's']], .seqs [.lit ['e', 'm', ' '], .number, .lit [' ', 's', 'e', 'g', 'u', 'n', 'd', 'o', 's']], .seqs [.lit ['h', 'a', ' '], .number, .lit [' ', 's', 'e', 'g', 'u', 'n', 'd', 'o', 's']], .seqs [.lit ['e', 'm', ' '], .number, .lit [' ', 'm', 'i', 'n', 'u', 't', 'o', 's']], .seqs [.lit ['e', 'm', ' '], .number, .lit [' ', 's', 'e', 'g', 'u', 'n', 'd', 'o']], .seqs [.lit ['e', 'm', ' '], .number, .lit [' ', 's', 'e', 'm', 'a', 'n', 'a', 's']], .seqs [.lit ['h', 'a', ' '], .number, .lit [' ', 'm', 'i', 'n', 'u', 't', 'o', 's']], .seqs [.lit ['h', 'a', ' '], .number, .lit [' ', 's', 'e', 'g', 'u', 'n', 'd', 'o']], .seqs [.lit ['h', 'a', ' '], .number, .lit [' ', 's', 'e', 'm', 'a', 'n', 'a', 's']], .seqs [.lit ['e', 'm', ' '], .number, .lit [' ', 'm', 'i', 'n', 'u', 't', 'o']], .seqs [.lit ['e', 'm', ' '], .number, .lit [' ', 's', 'e', 'm', 'a', 'n', 'a']], .seqs [.lit ['h', 'a', ' '], .number, .lit [' ', 'm', 'i', 'n', 'u', 't', 'o']], .seqs [.lit ['h', 'a', ' '], .number, .lit [' ', 's', 'e', 'm', 'a', 'n', 'a']], .seqs [.lit ['e', 'm', ' '], .number, .lit [' ', 'h', 'o', 'r', 'a', 's']], .seqs [.lit ['e', 'm', ' '], .number, .lit [' ', 'm', 'e', 's', 'e', 's']], .seqs [.lit ['h', 'a', ' '], .number, .lit [' ', 'h', 'o', 'r', 'a', 's']], .seqs [.lit ['h', 'a', ' '], .number, .lit [' ', 'm', 'e', 's', 'e', 's']], .seqs [.lit ['e', 'm', ' '], .number, .lit [' ', 'a', 'n', 'o', 's']], .seqs [.lit ['e', 'm', ' '], .number, .lit [' ', 'd', 'i', 'a', 's']], .seqs [.lit ['e', 'm', ' '], .number, .lit [' ', 'h', 'o', 'r', 'a']], .seqs [.lit ['e', 'm', ' '], .number, .lit [' ', 'm', 'i', 'n', 's']], .seqs [.lit ['e', 'm', ' '], .number, .lit [' ', 's', 'e', 'g', 's']], .seqs [.lit ['h', 'a', ' '], .number, .lit [' ', 'a', 'n', 'o', 's']], .seqs [.lit ['h', 'a', ' '], .number, .lit [' ', 'd', 'i', 'a', 's']], .seqs [.lit ['h', 'a', ' '], .number, .lit [' ', 'h', 'o', 'r', 'a']], .seqs [.lit ['h', 'a', ' '], .number, .lit [' ', 'm', 'i', 'n', 's']], .seqs [.lit ['e', 'm', ' '], .number, .lit [' ', 'a', 'n', 'o']], .seqs [.lit ['e', 'm', ' '], .number, .lit [' ', 'd', 'i', 'a']], .seqs [.lit ['e', 'm', ' '], .number, .lit [' ', 'm', 'e', 's']], .seqs [.lit ['e', 'm', ' '], .number, .lit [' ', 'm', 'i', 'n']], .seqs [.lit ['e', 'm', ' '], .number, .lit [' ', 's', 'e', 'g']], .seqs [.lit ['e', 'm', ' '], .number, .lit [' ', 's', 'e', 'm']], .seqs [.lit ['h', 'a', ' '], .number, .lit [' ', 'a', 'n', 'o']], .seqs [.lit ['h', 'a', ' '], .number, .lit [' ', 'd', 'i', 'a']], .seqs [.lit ['h', 'a', ' '], .number, .lit [' ', 'm', 'e', 's']], .seqs [.lit ['h', 'a', ' '], .number, .lit [' ', 'm', 'i', 'n']], .seqs [.lit ['h', 'a', ' '], .number, .lit [' ', 's', 'e', 'g']], .seqs [.lit ['h', 'a', ' '], .number, .lit [' ', 's', 'e', 'm']], .seqs [.lit ['e', 'm', ' '], .number, .lit [' ', 'h']], .seqs [.lit ['h', 'a', ' '], .number, .lit [' ', 'h']], .seqs [.lit ['h', 'a', ' '], .number, .lit [' ', 's']]]), .eos]),
  knownWords :=
   [['p', 'r', 'o', 'x', 'i', 'm', 'a', ' ', 's', 'e', 'm', 'a', 'n', 'a'], ['s', 'e', 'm', 'a', 'n', 'a', ' ', 'p', 'a', 's', 's', 'a', 'd', 'a'], ['s', 'e', 'g', 'u', 'n', 'd', 'a', '-', 'f', 'e', 'i', 'r', 'a'], ['q', 'u', 'a', 'r', 't', 'a', '-', 'f', 'e', 'i', 'r', 'a'], ['q', 'u', 'i', 'n', 't', 'a', '-', 'f', 'e', 'i', 'r', 'a'], ['a', 'n', 'o', ' ', 'p', 'a', 's', 's', 'a', 'd', 'o'], ['e', 's', 't', 'a', ' ', 's', 'e', 'm', 'a', 'n', 'a'], ['e', 's', 't', 'e', ' ', 'm', 'i', 'n', 'u', 't', 'o'], ['m', 'e', 's', ' ', 'p', 'a', 's', 's', 'a', 'd', 'o'], ['p', 'r', 'o', 'x', 'i', 'm', 'o', ' ', 'a', 'n', 'o'], ['p', 'r', 'o', 'x', 'i', 'm', 'o', ' ', 'm', 'e', 's'], ['s', 'e', 'x', 't', 'a', '-', 'f', 'e', 'i', 'r', 'a'], ['t', 'e', 'r', 'c', 'a', '-', 'f', 'e', 'i', 'r', 'a'], ['a', 'n', 't', 'e', 'o', 'n', 't', 'e', 'm'], ['e', 's', 't', 'a', ' ', 'h', 'o', 'r', 'a'], ['f', 'e', 'v', 'e', 'r', 'e', 'i', 'r', 'o'], ['s', 'e', 'p', 't', 'e', 'm', 'b', 'r', 'o'], ['d', 'a', ' ', 'm', 'a', 'n', 'h', 'a'], ['d', 'a', ' ', 't', 'a', 'r', 'd', 'e'], ['d', 'e', 'z', 'e', 'm', 'b', 'r', 'o'], ['e', 's', 't', 'e', ' ', 'a', 'n', 'o'], ['e', 's', 't', 'e', ' ', 'm', 'e', 's'], ['n', 'o', 'v', 'e', 'm', 'b', 'r', 'o'], ['s', 'e', 'g', 'u', 'n', 'd', 'o', 's'], ['s', 'e', 't', 'e', 'm', 'b', 'r', 'o'], ['d', 'o', 'm', 'i', 'n', 'g', 'o'], ['j', 'a', 'n', 'e', 'i', 'r', 'o'], ['m', 'i', 'n', 'u', 't', 'o', 's'], ['o', 'u', 't', 'u', 'b', 'r', 'o'], ['s', 'e', 'g', 'u', 'n', 'd', 'a'], ['s', 'e', 'g', 'u', 'n', 'd', 'o'], ['s', 'e', 'm', 'a', 'n', 'a', 's'], ['a', 'g', 'o', 's', 't', 'o'], ['a', 'm', 'a', 'n', 'h', 'a'], ['m', 'i', 'n', 'u', 't', 'o'], ['q', 'u', 'a', 'r', 't', 'a'], ['q', 'u', 'i', 'n', 't', 'a'], ['s', 'a', 'b', 'a', 'd', 'o'], ['s', 'e', 'm', 'a', 'n', 'a'], ['a', 'b', 'r', 'i', 'l'], ['a', 'g', 'o', 'r', 'a'], ['a', 't', 'r', 'a', 's'], ['c', 'e', 'r', 'c', 'a'], ['h', 'o', 'r', 'a', 's'], ['j', 'u', 'l', 'h', 'o'], ['j', 'u', 'n', 'h', 'o'], ['m', 'a', 'n', 'h', 'a'], ['m', 'a', 'r', 'c', 'o'], ['m', 'e', 's', 'e', 's'], ['o', 'n', 't', 'e', 'm'], ['s', 'e', 'x', 't', 'a'], ['t', 'a', 'r', 'd', 'e'], ['t', 'e', 'r', 'c', 'a'], ['a', 'n', 'o', 's'], ['d', 'i', 'a', 's'], ['h', 'o', 'j', 'e'], ['h', 'o', 'r', 'a'], ['m', 'a', 'i', 'o'], ['a', 'b', 'r'], ['a', 'g', 'o'], ['a', 'n', 'o'], ['d', 'e', 'z'], ['d', 'i', 'a'], ['d', 'o', 'm'], ['f', 'e', 'v'], ['g', 'm', 't'], ['j', 'a', 'n'], ['j', 'u', 'l'], ['j', 'u', 'n'], ['m', 'a', 'i'], ['m', 'a', 'r'], ['m', 'e', 's'], ['m', 'i', 'n'], ['n', 'o', 'v'], ['o', 'u', 't'], ['q', 'u', 'a'], ['q', 'u', 'i'], ['s', 'a', 'b'], ['s', 'e', 'g'], ['s', 'e', 'm'], ['s', 'e', 't'], ['s', 'e', 'x'], ['t', 'e', 'r'], ['u', 't', 'c'], ['a', 'm'], ['a', 's'], ['d', 'e'], ['e', 'm'], ['h', 'a'], ['p', 'm'], [' '], ['\''], ['+'], [','], ['-'], ['.'], ['/'], [':'], [';'], ['@'], ['['], [']'], ['e'], ['h'], ['m'], ['s'], ['z'], ['|']] }

/-- internal/data/pt.go: `pt_MO_Locale`. -/
def pt_MOLang : LangData := { pt_MODict with
  relativeRegexes :=
   [(.seqs [.lit ['d', 'e', 'n', 't', 'r', 'o', ' ', 'd', 'e', ' '], .grp 1 (.number), .lit [' ', 's', 'e', 'g', 'u', 'n', 'd', 'o', 's']], [.lit ['i', 'n', ' '], .ref 1, .lit [' ', 's', 'e', 'c', 'o', 'n', 'd']]),
    (.seqs [.lit ['d', 'e', 'n', 't', 'r', 'o', ' ', 'd', 'e', ' '], .grp 1 (.number), .lit [' ', 'm', 'i', 'n', 'u', 't', 'o', 's']], [.lit ['i', 'n', ' '], .ref 1, .lit [' ', 'm', 'i', 'n', 'u', 't', 'e']]),
    (.seqs [.lit ['d', 'e', 'n', 't', 'r', 'o', ' ', 'd', 'e', ' '], .grp 1 (.number), .lit [' ', 's', 'e', 'g', 'u', 'n', 'd', 'o']], [.lit ['i', 'n', ' '], .ref 1, .lit [' ', 's', 'e', 'c', 'o', 'n', 'd']]),
    (.seqs [.lit ['d', 'e', 'n', 't', 'r', 'o', ' ', 'd', 'e', ' '], .grp 1 (.number), .lit [' ', 's', 'e', 'm', 'a', 'n', 'a', 's']], [.lit ['i', 'n', ' '], .ref 1, .lit [' ', 'w', 'e', 'e', 'k']]),
    (.seqs [.lit ['d', 'e', 'n', 't', 'r', 'o', ' ', 'd', 'e', ' '], .grp 1 (.number), .lit [' ', 'm', 'i', 'n', 'u', 't', 'o']], [.lit ['i', 'n', ' '], .ref 1, .lit [' ', 'm', 'i', 'n', 'u', 't', 'e']]),
    (.seqs [.lit ['d', 'e', 'n', 't', 'r', 'o', ' ', 'd', 'e', ' '], .grp 1 (.number), .lit [' ', 's', 'e', 'm', 'a', 'n', 'a']], [.lit ['i', 'n', ' '], .ref 1, .lit [' ', 'w', 'e', 'e', 'k']]),
    (.seqs [.lit ['d', 'e', 'n', 't', 'r', 'o', ' ', 'd', 'e', ' '], .grp 1 (.number), .lit [' ', 'h', 'o', 'r', 'a', 's']], [.lit ['i', 'n', ' '], .ref 1, .lit [' ', 'h', 'o', 'u', 'r']]),
    (.seqs [.lit ['d', 'e', 'n', 't', 'r', 'o', ' ', 'd', 'e', ' '], .grp 1 (.number), .lit [' ', 'm', 'e', 's', 'e', 's']], [.lit ['i', 'n', ' '], .ref 1, .lit [' ', 'm', 'o', 'n', 't', 'h']]),
    (.seqs [.lit ['d', 'e', 'n', 't', 'r', 'o', ' ', 'd', 'e', ' '], .grp 1 (.number), .lit [' ', 'a', 'n', 'o', 's']], [.lit ['i', 'n', ' '], .ref 1, .lit [' ', 'y', 'e', 'a', 'r']]),
    (.seqs [.lit ['d', 'e', 'n', 't', 'r', 'o', ' ', 'd', 'e', ' '], .grp 1 (.number), .lit [' ', 'd', 'i', 'a', 's']], [.lit ['i', 'n', ' '], .ref 1, .lit [' ', 'd', 'a', 'y']]),
    (.seqs [.lit ['d', 'e', 'n', 't', 'r', 'o', ' ', 'd', 'e', ' '], .grp 1 (.number), .lit [' ', 'h', 'o', 'r', 'a']], [.lit ['i', 'n', ' '], .ref 1, .lit [' ', 'h', 'o', 'u', 'r']]),
    (.seqs [.lit ['d', 'e', 'n', 't', 'r', 'o', ' ', 'd', 'e', ' '], .grp 1 (.number), .lit [' ', 'a', 'n', 'o']], [.lit ['i', 'n', ' '], .ref 1, .lit [' ', 'y', 'e', 'a', 'r']]),
    (.seqs [.lit ['d', 'e', 'n', 't', 'r', 'o', ' ', 'd', 'e', ' '], .grp 1 (.number), .lit [' ', 'd', 'i', 'a']], [.lit ['i', 'n', ' '], .ref 1, .lit [' ', 'd', 'a', 'y']]),
    (.seqs [.lit ['d', 'e', 'n', 't', 'r', 'o', ' ', 'd', 'e', ' '], .grp 1 (.number), .lit [' ', 'm', 'e', 's']], [.lit ['i', 'n', ' '], .ref 1, .lit [' ', 'm', 'o', 'n', 't', 'h']]),
    (.seqs [.lit ['d', 'e', 'n', 't', 'r', 'o', ' ', 'd', 'e', ' '], .grp 1 (.number), .lit [' ', 'm', 'i', 'n']], [.lit ['i', 'n', ' '], .ref 1, .lit [' ', 'm', 'i', 'n', 'u', 't', 'e']]),
    (.seqs [.lit ['d', 'e', 'n', 't', 'r', 'o', ' ', 'd', 'e', ' '], .grp 1 (.number), .lit [' ', 's', 'e', 'm']], [.lit ['i', 'n', ' '], .ref 1, .lit [' ', 'w', 'e', 'e', 'k']]),
    (.seqs [.lit ['d', 'e', 'n', 't', 'r', 'o', ' ', 'd', 'e', ' '], .grp 1 (.number), .lit [' ', 'h']], [.lit ['i', 'n', ' '], .ref 1, .lit [' ', 'h', 'o', 'u', 'r']]),
    (.seqs [.lit ['d', 'e', 'n', 't', 'r', 'o', ' ', 'd', 'e', ' '], .grp 1 (.number), .lit [' ', 's']], [.lit ['i', 'n', ' '], .ref 1, .lit [' ', 's', 'e', 'c', 'o', 'n', 'd']]),
    (.seqs [.lit ['h', 'a', ' '], .grp 1 (.number), .lit [' ', 's']], [.ref 1, .lit [' ', 's', 'e', 'c', 'o', 'n', 'd', ' ', 'a', 'g', 'o']])],
  rxCombined := some (.seqs [.grp 1 (.alts [.bos, .cls true [.letter, .mark, .digit], .lit ['_']]), .grp 2 (.alts [.seqs [.lit ['d', 'e', 'n', 't', 'r', 'o', ' ', 'd', 'e', ' '], .number, .lit [' ', 's', 'e', 'g', 'u', 'n', 'd', 'o', 's']], .seqs [.lit ['d', 'e', 'n', 't', 'r', 'o', ' ', 'd', 'e', ' '], .number, .lit [' ', 'm', 'i', 'n', 'u', 't', 'o', 's']], .seqs [.lit ['d', 'e', 'n', 't', 'r', 'o', ' ', 'd', 'e', ' '], .number, .lit [' ', 's', 'e', 'g', 'u', 'n', 'd', 'o']], .seqs [.lit ['d', 'e', 'n', 't', 'r', 'o', ' ', 'd', 'e', ' '], .number, .lit [' ', 's', 'e', 'm', 'a', 'n', 'a', 's']], .seqs [.lit ['d', 'e', 'n', 't', 'r', 'o', ' ', 'd', 'e', ' '], .number, .lit [' ', 'm', 'i', 'n', 'u', 't', 'o']], .seqs [.lit ['d', 'e', 'n', 't', 'r', 'o', ' ', 'd', 'e', ' '], .number, .lit [' ', 's', 'e', 'm', 'a', 'n', 'a']], .seqs [.lit ['d', 'e', 'n', 't', 'r', 'o', ' ', 'd', 'e', ' '], .number, .lit [' ', 'h', 'o', 'r', 'a', 's']], .seqs [.lit ['d', 'e', 'n', 't', 'r', 'o', ' ', 'd', 'e', ' '], .number, .lit [' ', 'm', 'e', 's', 'e', 's']], .seqs [.lit ['d', 'e', 'n', 't', 'r', 'o', ' ', 'd', 'e', ' '], .number, .lit [' ', 'a', 'n', 'o', 's']], .seqs [.lit ['d', 'e', 'n', 't', 'r', 'o', ' ', 'd', 'e', ' '], .number, .lit [' ', 'd', 'i', 'a', 's']], .seqs [.lit ['d', 'e', 'n', 't', 'r', 'o', ' ', 'd', 'e', ' '], .number, .lit [' ', 'h', 'o', 'r', 'a']], .seqs [.lit ['d', 'e', 'n', 't', 'r', 'o', ' ', 'd', 'e', ' '], .number, .lit [' ', 'a', 'n', 'o']], .seqs [.lit ['d', 'e', 'n', 't', 'r', 'o', ' ', 'd', 'e', ' '], .number, .lit [' ', 'd', 'i', 'a']], .seqs [.lit ['d', 'e', 'n', 't', 'r', 'o', ' ', 'd', 'e', ' '], .number, .lit [' ', 'm', 'e', 's']], .seqs [.lit ['d', 'e', 'n', 't', 'r', 'o', ' ', 'd', 'e', ' '], .number, .lit [' ', 'm', 'i', 'n']], .seqs [.lit ['d', 'e', 'n', 't', 'r', 'o', ' ', 'd', 'e', ' '], .number, .lit [' ', 's', 'e', 'm']], .seqs [.lit ['d', 'e', 'n', 't', 'r', 'o', ' ', 'd', 'e', ' '], .number, .lit [' ', 'h']], .seqs [.lit ['d', 'e', 'n', 't', 'r', 'o', ' ', 'd', 'e', ' '], .number, .lit [' ', 's']], .seqs [.lit ['e', 'm', ' '], .number, .lit [' ', 's', 'e', 'g', 'u', 'n', 'd', 'o', 's']], .seqs [.lit ['h', 'a', ' '], .number, .lit [' ', 's', 'e', 'g', 'u', 'n', 'd', 'o', 's']], .seqs [.lit ['e', 'm', ' '], .number, .lit [' ', 'm', 'i', 'n', 'u', 't', 'o', 's']], .seqs [.lit ['e', 'm', ' '], .number, .lit [' ', 's', 'e', 'g', 'u', 'n', 'd', 'o']], .seqs [.lit ['e', 'm', ' '], .number, .lit [' ', 's', 'e', 'm', 'a', 'n', 'a', 's']], .seqs [.lit ['h', 'a', ' '], .number, .lit [' ', 'm', 'i', 'n', 'u', 't', 'o', 's']], .seqs [.lit ['h', 'a', ' '], .number, .lit [' ', 's', 'e', 'g', 'u', 'n', 'd', 'o']], .seqs [.lit ['h', 'a', ' '], .number, .lit [' ', 's', 'e', 'm', 'a', 'n', 'a', 's']], .seqs [.lit ['e', 'm', ' '], .number, .lit [' ', 'm', 'i', 'n', 'u', 't', 'o']], .seqs [.lit ['e', 'm', ' '], .number, .lit [' ', 's', 'e', 'm', 'a', 'n', 'a']], .seqs [.lit ['h', 'a', ' '], .number, .lit [' ', 'm', 'i', 'n', 'u', 't', 'o']], .seqs [.lit ['h', 'a', ' '], .number, .lit [' ', 's', 'e', 'm', 'a', 'n', 'a']], .seqs [.lit ['e', 'm', ' '], .number, .lit [' ', 'h', 'o', 'r', 'a', 's']], .seqs [.lit ['e', 'm', ' '], .number, .lit [' ', 'm', 'e', 's', 'e', 's']], .seqs [.lit ['h', 'a', ' '], .number, .lit [' ', 'h', 'o', 'r', 'a', 's']], .seqs [.lit ['h', 'a', ' '], .number, .lit [' ', 'm', 'e', 's', 'e', 's']], .seqs [.lit ['e', 'm', ' '], .number, .lit [' ', 'a', 'n', 'o', 's']], .seqs [.lit ['e', 'm', ' '], .number, .lit [' ', 'd', 'i', 'a', 's']], .seqs [.lit ['e', 'm', ' '], .number, .lit [' ', 'h', 'o', 'r', 'a']], .seqs [.lit ['e', 'm', ' '], .number, .lit [' ', 'm', 'i', 'n', 's']], .seqs [.lit ['e', 'm', ' '], .number, .lit [' ', 's', 'e', 'g', 's']], .seqs [.lit ['h', 'a', ' '], .number, .lit [' ', 'a', 'n', 'o', 's']], .seqs [.lit ['h', 'a', ' '], .number, .lit [' ', 'd', 'i', 'a', 's']], .seqs [.lit ['h', 'a', ' '], .number, .lit [' ', 'h', 'o', 'r', 'a']], .seqs [.lit ['h', 'a', ' '], .number, .lit [' ', 'm', 'i', 'n', 's']], .seqs [.lit ['e', 'm', ' '], .number, .lit [' ', 'a', 'n', 'o']], .seqs [.lit ['e', 'm', ' '], .number, .lit [' ', 'd', 'i', 'a']], .seqs [.lit ['e', 'm', ' '], .number, .lit [' ', 'm', 'e', 's']], .seqs [.lit ['e', 'm', ' '], .number, .lit [' ', 'm', 'i', 'n']], .seqs [.lit ['e', 'm', ' '], .number, .lit [' ', 's', 'e', 'g']], .seqs [.lit ['e', 'm', ' '], .number, .lit [' ', 's', 'e', 'm']], .seqs [.lit ['h', 'a', ' '], .number, .lit [' ', 'a', 'n', 'o']], .seqs [.lit ['h', 'a', ' '], .number, .lit [' ', 'd', 'i', 'a']], .seqs [.lit ['h', 'a', ' '], .number, .lit [' ', 'm', 'e', 's']], .seqs [.lit ['h', 'a', ' '], .number, .lit [' ', 'm', 'i', 'n']], .seqs [.lit ['h', 'a', ' '], .number, .lit [' ', 's', 'e', 'g']], .seqs [.lit ['h', 'a', ' '], .number, .lit [' ', 's', 'e', 'm']], .seqs [.lit ['e', 'm', ' '], .number, .lit [' ', 'h']], .seqs [.lit ['h', 'a', ' '], .number, .lit [' ', 'h']], .seqs [.lit ['h', 'a', ' '], .number, .lit [' ', 's']]]), .grp 3 (.alts [.eos, .cls true [.letter, .mark, .digit], .lit ['_']])], 3),
  rxExact := some (.seqs [.bos, .grp 1 (.alts [.seqs [.lit ['d', 'e', 'n', 't', 'r', 'o', ' ', 'd', 'e', ' '], .number, .lit [' ', 's', 'e', 'g', 'u', 'n', 'd', 'o', 's']], .seqs [.lit ['d', 'e', 'n', 't', 'r', 'o', ' ', 'd', 'e', ' '], .number, .lit [' ', 'm', 'i', 'n', 'u', 't', 'o', 's']], .seqs [.lit ['d', 'e', 'n', 't', 'r', 'o', ' ', 'd', 'e', ' '], .number, .lit [' ', 's', 'e', 'g', 'u', 'n', 'd', 'o']], .seqs [.lit ['d', 'e', 'n', 't', 'r', 'o', ' ', 'd', 'e', ' '], .number, .lit [' ', 's', 'e', 'm', 'a', 'n', 'a', 's']], .seqs [.lit ['d', 'e', 'n', 't', 'r', 'o', ' ', 'd', 'e', ' '], .number, .lit [' ', 'm', 'i', 'n', 'u', 't', 'o']], .seqs [.lit ['d', 'e', 'n', 't', 'r', 'o', ' ', 'd', 'e', ' '], .number, .lit [' ', 's', 'e', 'm', 'a', 'n', 'a']], .seqs [.lit ['d', 'e', 'n', 't', 'r', 'o', ' ', 'd', 'e', ' '], .number, .lit [' ', 'h', 'o', 'r', 'a', 's']], .seqs [.lit ['d', 'e', 'n', 't', 'r', 'o', ' ', 'd', 'e', ' '], .number, .lit [' ', 'm', 'e', 's', 'e', 's']], .seqs [.lit ['d', 'e', 'n', 't', 'r', 'o', ' ', 'd', 'e', ' '], .number, .lit [' ', 'a', 'n', 'o', 's']], .seqs [.lit ['d', 'e', 'n', 't', 'r', 'o', ' ', 'd', 'e', ' '], .number, .lit [' ', 'd', 'i', 'a', 's']], .seqs [.lit ['d', 'e', 'n', 't', 'r', 'o', ' ', 'd', 'e', ' '], .number, .lit [' ', 'h', 'o', 'r', 'a']], .seqs [.lit ['d', 'e', 'n', 't', 'r', 'o', ' ', 'd', 'e', ' '], .number, .lit [' ', 'a', 'n', 'o']], .seqs [.lit ['d', 'e', 'n', 't', 'r', 'o', ' ', 'd', 'e', ' '], .number, .lit [' ', 'd', 'i', 'a']], .seqs [.lit ['d', 'e', 'n', 't', 'r', 'o', ' ', 'd', 'e', ' '], .number, .lit [' ', 'm', 'e', 's']], .seqs [.lit ['d', 'e', 'n', 't', 'r', 'o', ' ', 'd', 'e', ' '], .number, .lit [' ', 'm', 'i', 'n']], .seqs [.lit ['d', 'e', 'n', 't', 'r', 'o', ' ', 'd', 'e', ' '], .number, .lit [' ', 's', 'e', 'm']], .seqs [.lit ['d', 'e', 'n', 't', 'r', 'o', ' ', 'd', 'e', ' '], .number, .lit [' ', 'h']], .seqs [.lit ['d', 'e', 'n', 't', 'r', 'o', ' ', 'd', 'e', ' '], .number, .lit [' ', 's']], .seqs [.lit ['e', 'm', ' '], .number, .lit [' ', 's', 'e', 'g', 'u', 'n', 'd', 'o', 's']], .seqs [.lit ['h', 'a', ' '], .number, .lit [' ', 's', 'e', 'g', 'u', 'n', 'd', 'o', 's']], .seqs [.lit ['e', 'm', ' '], .number, .lit [' ', 'm', 'i', 'n', 'u', 't', 'o', 's']], .seqs [.lit ['e', 'm', ' '], .number, .lit [' ', 's', 'e', 'g', 'u', 'n', 'd', 'o']], .seqs [.lit ['e', 'm', ' '], .number, .lit [' ', 's', 'e', 'm', 'a', 'n', 'a', 's']], .seqs [.lit ['h', 'a', ' '], .number, .lit [' ', 'm', 'i', 'n', 'u', 't', 'o', 's']], .seqs [.lit ['h', 'a', ' '], .number, .lit [' ', 's', 'e', 'g', 'u', 'n', 'd', 'o']], .seqs [.lit ['h', 'a', ' '], .number, .lit [' ', 's', 'e', 'm', 'a', 'n', 'a', 's']], .seqs [.lit ['e', 'm', ' '], .number, .lit [' ', 'm', 'i', 'n', 'u', 't', 'o']], .seqs [.lit ['e', 'm', ' '], .number, .lit [' ', 's', 'e', 'm', 'a', 'n', 'a']], .seqs [.lit ['h', 'a', ' '], .number, .lit [' ', 'm', 'i', 'n', 'u', 't', 'o']], .seqs [.lit ['h', 'a', ' '], .number, .lit [' ', 's', 'e', 'm', 'a', 'n', 'a']], .seqs [.lit ['e', 'm', ' '], .number, .lit [' ', 'h', 'o', 'r', 'a', 's']], .seqs [.lit ['e', 'm', ' '], .number, .lit [' ', 'm', 'e', 's', 'e', 's']], .seqs [.lit ['h', 'a', ' '], .number, .lit [' ', 'h', 'o', 'r', 'a', 's']], .seqs [.lit ['h', 'a', ' '], .number, .lit [' ', 'm', 'e', 's', 'e', 's']], .seqs [.lit ['e', 'm', ' '], .number, .lit [' ', 'a', 'n', 'o', 's']], .seqs [.lit ['e', 'm', ' '], .number, .lit [' ', 'd', 'i', 'a', 's']], .seqs [.lit ['e', 'm', ' '], .number, .lit [' ', 'h', 'o', 'r', 'a']], .seqs [.lit ['e', 'm', ' '], .number, .lit [' ', 'm', 'i', 'n', 's']], .seqs [.lit ['e', 'm', ' '], .number, .lit [' ', 's', 'e', 'g', 's']], .seqs [.lit ['h', 'a', ' '], .number, .lit [' ', 'a', 'n', 'o', 's']], .seqs [.lit ['h', 'a', ' '], .number, .lit [' ', 'd', 'i', 'a', 's']], .seqs [.lit ['h', 'a', ' '], .number, .lit [' ', 'h', 'o', 'r', 'a']], .seqs [.lit ['h', 'a', ' '], .number, .lit [' ', 'm', 'i', 'n', 's']], .seqs [.lit ['e', 'm', ' '], .number, .lit [' ', 'a', 'n', 'o']], .seqs [.lit ['e', 'm', ' '], .number, .lit [' ', 'd', 'i', 'a']], .seqs [.lit ['e', 'm', ' '], .number, .lit [' ', 'm', 'e', 's']], .seqs [.lit ['e', 'm', ' '], .number, .lit [' ', 'm', 'i', 'n']], .seqs [.lit ['e', 'm', ' '], .number, .lit [' ', 's', 'e', 'g']], .seqs [.lit ['e', 'm', ' '], .number, .lit [' ', 's', 'e', 'm']], .seqs [.lit ['h', 'a', ' '], .number, .lit [' ', 'a', 'n', 'o']], .seqs [.lit ['h', 'a', ' '], .number, .lit [' ', 'd', 'i', 'a']], .seqs [.lit ['h', 'a', ' '], .number, .lit [' ', 'm', 'e', 's']], .seqs [.lit ['h', 'a', ' '], .number, .lit [' ', 'm', 'i', 'n']], .seqs [.lit ['h', 'a', ' '], .number, .lit [' ', 's', 'e', 'g']], .seqs [.lit ['h', 'a', ' '], .number, .lit [' ', 's', 'e', 'm']], .seqs [.lit ['e', 'm', ' '], .number, .lit [' ', 'h']], .seqs [.lit ['h', 'a', ' '], .number, .lit [' ', 'h']], .seqs [.lit ['h', 'a', ' '], .number, .lit [' ', 's']]]), .eos]),
  knownWords :=
   [['p', 'r', 'o', 'x', 'i', 'm', 'a', ' ', 's', 'e', 'm', 'a', 'n', 'a'], ['s', 'e', 'm', 'a', 'n', 'a', ' ', 'p', 'a', 's', 's', 'a', 'd', 'a'], ['s', 'e', 'g', 'u', 'n', 'd', 'a', '-', 'f', 'e', 'i', 'r', 'a'], ['q', 'u', 'a', 'r', 't', 'a', '-', 'f', 'e', 'i', 'r', 'a'], ['q', 'u', 'i', 'n', 't', 'a', '-', 'f', 'e', 'i', 'r', 'a'], ['a', 'n', 'o', ' ', 'p', 'a', 's', 's', 'a', 'd', 'o'], ['e', 's', 't', 'a', ' ', 's', 'e', 'm', 'a', 'n', 'a'], ['e', 's', 't', 'e', ' ', 'm', 'i', 'n', 'u', 't', 'o'], ['m', 'e', 's', ' ', 'p', 'a', 's', 's', 'a', 'd', 'o'], ['p', 'r', 'o', 'x', 'i', 'm', 'o', ' ', 'a', 'n', 'o'], ['p', 'r', 'o', 'x', 'i', 'm', 'o', ' ', 'm', 'e', 's'], ['s', 'e', 'x', 't', 'a', '-', 'f', 'e', 'i', 'r', 'a'], ['t', 'e', 'r', 'c', 'a', '-', 'f', 'e', 'i', 'r', 'a'], ['a', 'n', 't', 'e', 'o', 'n', 't', 'e', 'm'], ['e', 's', 't', 'a', ' ', 'h', 'o', 'r', 'a'], ['f', 'e', 'v', 'e', 'r', 'e', 'i', 'r', 'o'], ['s', 'e', 'p', 't', 'e', 'm', 'b', 'r', 'o'], ['d', 'a', ' ', 'm', 'a', 'n', 'h', 'a'], ['d', 'a', ' ', 't', 'a', 'r', 'd', 'e'], ['d', 'e', 'z', 'e', 'm', 'b', 'r', 'o'], ['e', 's', 't', 'e', ' ', 'a', 'n', 'o'], ['e', 's', 't', 'e', ' ', 'm', 'e', 's'], ['n', 'o', 'v', 'e', 'm', 'b', 'r', 'o'], ['s', 'e', 'g', 'u', 'n', 'd', 'o', 's'], ['s', 'e', 't', 'e', 'm', 'b', 'r', 'o'], ['d', 'o', 'm', 'i', 'n', 'g', 'o'], ['j', 'a', 'n', 'e', 'i', 'r', 'o'], ['m', 'i', 'n', 'u', 't', 'o', 's'], ['o', 'u', 't', 'u', 'b', 'r', 'o'], ['s', 'e', 'g', 'u', 'n', 'd', 'a'], ['s', 'e', 'g', 'u', 'n', 'd', 'o'], ['s', 'e', 'm', 'a', 'n', 'a', 's'], ['a', 'g', 'o', 's', 't', 'o'], ['a', 'm', 'a', 'n', 'h', 'a'], ['m', 'i', 'n', 'u', 't', 'o'], ['q', 'u', 'a', 'r', 't', 'a'], ['q', 'u', 'i', 'n', 't', 'a'], ['s', 'a', 'b', 'a', 'd', 'o'], ['s', 'e', 'm', 'a', 'n', 'a'], ['a', 'b', 'r', 'i', 'l'], ['a', 'g', 'o', 'r', 'a'], ['a', 't', 'r', 'a', 's'], ['c', 'e', 'r', 'c', 'a'], ['h', 'o', 'r', 'a', 's'], ['j', 'u', 'l', 'h', 'o'], ['j', 'u', 'n', 'h', 'o'], ['m', 'a', 'n', 'h', 'a'], ['m', 'a', 'r', 'c', 'o'], ['m', 'e', 's', 'e', 's'], ['o', 'n', 't', 'e', 'm'], ['s', 'e', 'x', 't', 'a'], ['t', 'a', 'r', 'd', 'e'], ['t', 'e', 'r', 'c', 'a'], ['a', 'n', 'o', 's'], ['d', 'i', 'a', 's'], ['h', 'o', 'j', 'e'], ['h', 'o', 'r', 'a'], ['m', 'a', 'i', 'o'], ['a', 'b', 'r'], ['a', 'g', 'o'], ['a', 'n', 'o'], ['d', 'e', 'z'], ['d', 'i', 'a'], ['d', 'o', 'm'], ['f', 'e', 'v'], ['g', 'm', 't'], ['j', 'a', 'n'], ['j', 'u', 'l'], ['j', 'u', 'n'], ['m', 'a', 'i'], ['m', 'a', 'r'], ['m', 'e', 's'], ['m', 'i', 'n'], ['n', 'o', 'v'], ['o', 'u', 't'], ['q', 'u', 'a'], ['q', 'u', 'i'], ['s', 'a', 'b'], ['s', 'e', 'g'], ['s', 'e', 'm'], ['s', 'e', 't'], ['s', 'e', 'x'], ['t', 'e', 'r'], ['u', 't', 'c'], ['a', 'm'], ['a', 's'], ['d', 'e'], ['e', 'm'], ['h', 'a'], ['p', 'm'], [' '], ['\''], ['+'], [','], ['-'], ['.'], ['/'], [':'], [';'], ['@'], ['['], [']'], ['e'], ['h'], ['m'], ['s'], ['z'], ['|']] }

/-- internal/data/pt.go: `pt_MZ_Locale`. -/
def pt_MZLang : LangData := { pt_MZDict with
  relativeRegexes :=
   [(.seqs [.lit ['d', 'e', 'n', 't', 'r', 'o', ' ', 'd', 'e', ' '], .grp 1 (.number), .lit [' ', 's', 'e', 'g', 'u', 'n', 'd', 'o', 's']], [.lit ['i', 'n', ' '], .ref 1, .lit [' ', 's', 'e', 'c', 'o', 'n', 'd']]),
    (.seqs [.lit ['d', 'e', 'n', 't', 'r', 'o', ' ', 'd', 'e', ' '], .grp 1 (.number), .lit [' ', 'm', 'i', 'n', 'u', 't', 'o', 's']], [.lit ['i', 'n', ' '], .ref 1, .lit [' ', 'm', 'i', 'n', 'u', 't', 'e']]),
    (.seqs [.lit ['d', 'e', 'n', 't', 'r', 'o', ' ', 'd', 'e', ' '], .grp 1 (.number), .lit [' ', 's', 'e', 'g', 'u', 'n', 'd', 'o']], [.lit ['i', 'n', ' '], .ref 1, .lit [' ', 's', 'e', 'c', 'o', 'n', 'd']]),
    (.seqs [.lit ['d', 'e', 'n', 't', 'r', 'o', ' ', 'd', 'e', ' '], .grp 1 (.number), .lit [' ', 's', 'e', 'm', 'a', 'n', 'a', 's']], [.lit ['i', 'n', ' '], .ref 1, .lit [' ', 'w', 'e', 'e', 'k']]),
    (.seqs [.lit ['d', 'e', 'n', 't', 'r', 'o', ' ', 'd', 'e', ' '], .grp 1 (.number), .lit [' ', 'm', 'i', 'n', 'u', 't', 'o']], [.lit ['i', 'n', ' '], .ref 1, .lit [' ', 'm', 'i', 'n', 'u', 't', 'e']]),
    (.seqs [.lit ['d', 'e', 'n', 't', 'r', 'o', ' ', 'd', 'e', ' '], .grp 1 (.number), .lit [' ', 's', 'e', 'm', 'a', 'n', 'a']], [.lit ['i', 'n', ' '], .ref 1, .lit [' ', 'w', 'e', 'e', 'k']]),
    (.seqs [.lit ['d', 'e', 'n', 't', 'r', 'o', ' ', 'd', 'e', ' '], .grp 1 (.number), .lit [' ', 'h', 'o', 'r', 'a', 's']], [.lit ['i', 'n', ' '], .ref 1, .lit [' ', 'h', 'o', 'u', 'r']]),
    (.seqs [.lit ['d', 'e', 'n', 't', 'r', 'o', ' ', 'd', 'e', ' '], .grp 1 (.number), .lit [' ', 'm', 'e', 's', 'e', 's']], [.lit ['i', 'n', ' '], .ref 1, .lit [' ', 'm', 'o', 'n', 't', 'h']]),
    (.seqs [.lit ['d', 'e', 'n', 't', 'r', 'o', ' ', 'd', 'e', ' '], .grp 1 (.number), .lit [' ', 'a', 'n', 'o', 's']], [.lit ['i', 'n', ' '], .ref 1, .lit [' ', 'y', 'e', 'a', 'r']]),
    (.seqs [.lit ['d', 'e', 'n', 't', 'r', 'o', ' ', 'd', 'e', ' '], .grp 1 (.number), .lit [' ', 'd', 'i', 'a', 's']], [.lit ['i', 'n', ' '], .ref 1, .lit [' ', 'd', 'a', 'y']]),
    (.seqs [.lit ['d', 'e', 'n', 't', 'r', 'o', ' ', 'd', 'e', ' '], .grp 1 (.number), .lit [' ', 'h', 'o', 'r', 'a']], [.lit ['i', 'n', ' '], .ref 1, .lit [' ', 'h', 'o', 'u', 'r']]),
    (.seqs [.lit ['d', 'e', 'n', 't', 'r', 'o', ' ', 'd', 'e', ' '], .grp 1 (.number), .lit [' ', 'a', 'n', 'o']], [.lit ['i', 'n', ' '], .ref 1, .lit [' ', 'y', 'e', 'a', 'r']]),
    (.seqs [.lit ['d', 'e', 'n', 't', 'r', 'o', ' ', 'd', 'e', ' '], .grp 1 (.number), .lit [' ', 'd', 'i', 'a']], [.lit ['i', 'n', ' '], .ref 1, .lit [' ', 'd', 'a', 'y']]),
    (.seqs [.lit ['d', 'e', 'n', 't', 'r', 'o', ' ', 'd', 'e', ' '], .grp 1 (.number), .lit [' ', 'm', 'e', 's']], [.lit ['i', 'n', ' '], .ref 1, .lit [' ', 'm', 'o', 'n', 't', 'h']]),
    (.seqs [.lit ['d', 'e', 'n', 't', 'r', 'o', ' ', 'd', 'e', ' '], .grp 1 (.number), .lit [' ', 'm', 'i', 'n']], [.lit ['i', 'n', ' '], .ref 1, .lit [' ', 'm', 'i', 'n', 'u', 't', 'e']]),
    (.seqs [.lit ['d', 'e', 'n', 't', 'r', 'o', ' ', 'd', 'e', ' '], .grp 1 (.number), .lit [' ', 's', 'e', 'm']], [.lit ['i', 'n', ' '], .ref 1, .lit [' ', 'w', 'e', 'e', 'k']]),
    (.seqs [.lit ['d', 'e', 'n', 't', 'r', 'o', ' ', 'd', 'e', ' '], .grp 1 (.number), .lit [' ', 'h']], [.lit ['i', 'n', ' '], .ref 1, .lit [' ', 'h', 'o', 'u', 'r']]),
    (.seqs [.lit ['d', 'e', 'n', 't', 'r', 'o', ' ', 'd', 'e', ' '], .grp 1 (.number), .lit [' ', 's']], [.lit ['i', 'n', ' '], .ref 1, .lit [' ', 's', 'e', 'c', 'o', 'n', 'd']]),
    (.seqs [.lit ['h', 'a', ' '], .grp 1 (.number), .lit [' ', 's']], [.ref 1, .lit [' ', 's', 'e', 'c', 'o', 'n', 'd', ' ', 'a', 'g', 'o']])],
  rxCombined := some (.seqs [.grp 1 (.alts [.bos, .cls true [.letter, .mark, .digit], .lit ['_']]), .grp 2 (.alts [.seqs [.lit ['d', 'e', 'n', 't', 'r', 'o', ' ', 'd', 'e', ' '], .number, .lit [' ', 's', 'e', 'g', 'u', 'n', 'd', 'o', 's']], .seqs [.lit ['d', 'e', 'n', 't', 'r', 'o', ' ', 'd', 'e', ' '], .number, .lit [' ', 'm', 'i', 'n', 'u', 't', 'o', 's']], .seqs [.lit ['d', 'e', 'n', 't', 'r', 'o', ' ', 'd', 'e', ' '], .number, .lit [' ', 's', 'e', 'g', 'u', 'n', 'd', 'o']], .seqs [.lit ['d', 'e', 'n', 't', 'r', 'o', ' ', 'd', 'e', ' '], .number, .lit [' ', 's', 'e', 'm', 'a', 'n', 'a', 's']], .seqs [.lit ['d', 'e', 'n', 't', 'r', 'o', ' ', 'd', 'e', ' '], .number, .lit [' ', 'm', 'i', 'n', 'u', 't', 'o']], .seqs [.lit ['d', 'e', 'n', 't', 'r', 'o', ' ', 'd', 'e', ' '], .number, .lit [' ', 's', 'e', 'm', 'a', 'n', 'a']], .seqs [.lit ['d', 'e', 'n', 't', 'r', 'o', ' ', 'd', 'e', ' '], .number, .lit [' ', 'h', 'o', 'r', 'a', 's']], .seqs [.lit ['d', 'e', 'n', 't', 'r', 'o', ' ', 'd', 'e', ' '], .number, .lit [' ', 'm', 'e', 's', 'e', 's']], .seqs [.lit ['d', 'e', 'n', 't', 'r', 'o', ' ', 'd', 'e', ' '], .number, .lit [' ', 'a', 'n', 'o', 's']], .seqs [.lit ['d', 'e', 'n', 't', 'r', 'o', ' ', 'd', 'e', ' '], .number, .lit [' ', 'd', 'i', 'a', 's']], .seqs [.lit ['d', 'e', 'n', 't', 'r', 'o', ' ', 'd', 'e', ' '], .number, .lit [' ', 'h', 'o', 'r', 'a']], .seqs [.lit ['d', 'e', 'n', 't', 'r', 'o', ' ', 'd', 'e', ' '], .number, .lit [' ', 'a', 'n', 'o']], .seqs [.lit ['d', 'e', 'n', 't', 'r', 'o', ' ', 'd', 'e', ' '], .number, .lit [' ', 'd', 'i', 'a']], .seqs [.lit ['d', 'e', 'n', 't', 'r', 'o', ' ', 'd', 'e', ' '], .number, .lit [' ', 'm', 'e', 's']], .seqs [.lit ['d', 'e', 'n', 't', 'r', 'o', ' ', 'd', 'e', ' '], .number, .lit [' ', 'm', 'i', 'n']], .seqs [.lit ['d', 'e', 'n', 't', 'r', 'o', ' ', 'd', 'e', ' '], .number, .lit [' ', 's', 'e', 'm']], .seqs [.lit ['d', 'e', 'n', 't', 'r', 'o', ' ', 'd', 'e', ' '], .number, .lit [' ', 'h']], .seqs [.lit ['d', 'e', 'n', 't', 'r', 'o', ' ', 'd', 'e', ' '], .number, .lit [' ', 's']], .seqs [.lit ['e', 'm', ' '], .number, .lit [' ', 's', 'e', 'g', 'u', 'n', 'd', 'o', 's']], .seqs [.lit ['h', 'a', ' '], .number, .lit [' ', 's', 'e', 'g', 'u', 'n', 'd', 'o', 's']], .seqs [.lit ['e', 'm', ' '], .number, .lit [' ', 'm', 'i', 'n', 'u', 't', 'o', 's']], .seqs [.lit ['e', 'm', ' '], .number, .lit [' ', 's', 'e', 'g', 'u', 'n', 'd', 'o']], .seqs [.lit ['e', 'm', ' '], .number, .lit [' ', 's', 'e', 'm', 'a', 'n', 'a', 's']], .seqs [.lit ['h', 'a', ' '], .number, .lit [' ', 'm', 'i', 'n', 'u', 't', 'o', 's']], .seqs [.lit ['h', 'a', ' '], .number, .lit [' ', 's', 'e', 'g', 'u', 'n', 'd', 'o']], .seqs [.lit ['h', 'a', ' '], .number, .lit [' ', 's', 'e', 'm', 'a', 'n', 'a', 's']], .seqs [.lit ['e', 'm', ' '], .number, .lit [' ', 'm', 'i', 'n', 'u', 't', 'o']], .seqs [.lit ['e', 'm', ' '], .number, .lit [' ', 's', 'e', 'm', 'a', 'n', 'a']], .seqs [.lit ['h', 'a', ' '], .number, .lit [' ', 'm', 'i', 'n', 'u', 't', 'o']], .seqs [.lit ['h', 'a', ' '], .number, .lit [' ', 's', 'e', 'm', 'a', 'n', 'a']], .seqs [.lit ['e', 'm', ' '], .number, .lit [' ', 'h', 'o', 'r', 'a', 's']], .seqs [.lit ['e', 'm', ' '], .number, .lit [' ', 'm', 'e', 's', 'e', 's']], .seqs [.lit ['h', 'a', ' '], .number, .lit [' ', 'h', 'o', 'r', 'a', 's']], .seqs [.lit ['h', 'a', ' '], .number, .lit [' ', 'm', 'e', 's', 'e', 's']], .seqs [.lit ['e', 'm', ' '], .number, .lit [' ', 'a', 'n', 'o', 's']], .seqs [.lit ['e', 'm', ' '], .number, .lit [' ', 'd', 'i', 'a', 's']], .seqs [.lit ['e', 'm', ' '], .number, .lit [' ', 'h', 'o', 'r', 'a']], .seqs [.lit ['e', 'm', ' '], .number, .lit [' ', 'm', 'i', 'n', 's']], .seqs [.lit ['e', 'm', ' '], .number, .lit [' ', 's', 'e', 'g', 's']], .seqs [.lit ['h', 'a', ' '], .number, .lit [' ', 'a', 'n', 'o', 's']], .seqs [.lit ['h', 'a', ' '], .number, .lit [' ', 'd', 'i', 'a', 's']], .seqs [.lit ['h', 'a', ' '], .number, .lit [' ', 'h', 'o', 'r', 'a']], .seqs [.lit ['h', 'a', ' '], .number, .lit [' ', 'm', 'i', 'n', 's']], .seqs [.lit ['e', 'm', ' '], .number, .lit [' ', 'a', 'n', 'o']], .seqs [.lit ['e', 'm', ' '], .number, .lit [' ', 'd', 'i', 'a']], .seqs [.lit ['e', 'm', ' '], .number, .lit [' ', 'm', 'e', 's']], .seqs [.lit ['e', 'm', ' '], .number, .lit [' ', 'm', 'i', 'n']], .seqs [.lit ['e', 'm', ' '], .number, .lit [' ', 's', 'e', 'g']], .seqs [.lit ['e', 'm', ' '], .number, .lit [' ', 's', 'e', 'm']], .seqs [.lit ['h', 'a', ' '], .number, .lit [' ', 'a', 'n', 'o']], .seqs [.lit ['h', 'a', ' '], .number, .lit [' ', 'd', 'i', 'a']], .seqs [.lit ['h', 'a', ' '], .number, .lit [' ', 'm', 'e', 's']], .seqs [.lit ['h', 'a', ' '], .number, .lit [' ', 'm', 'i', 'n']], .seqs [.lit ['h', 'a', ' '], .number, .lit [' ', 's', 'e', 'g']], .seqs [.lit ['h', 'a', ' '], .number, .lit [' ', 's', 'e', 'm']], .seqs [.lit ['e', 'm', ' '], .number, .lit [' ', 'h']], .seqs [.lit ['h', 'a', ' '], .number, .lit [' ', 'h']], .seqs [.lit ['h', 'a', ' '], .number, .lit [' ', 's']]]), .grp 3 (.alts [.eos, .cls true [.letter, .mark, .digit], .lit ['_']])], 3),
  rxExact := some (.seqs [.bos, .grp 1 (.alts [.seqs [.lit ['d', 'e', 'n', 't', 'r', 'o', ' ', 'd', 'e', ' '], .number, .lit [' ', 's', 'e', 'g', 'u', 'n', 'd', 'o', 's']], .seqs [.lit ['d', 'e', 'n', 't', 'r', 'o', ' ', 'd', 'e', ' '], .number, .lit [' ', 'm', 'i', 'n', 'u', 't', 'o', 's']], .seqs [.lit ['d', 'e', 'n', 't', 'r', 'o', ' ', 'd', 'e', ' '], .number, .lit [' ', 's', 'e', 'g', 'u', 'n', 'd', 'o']], .seqs [.lit ['d', 'e', 'n', 't', 'r', 'o', ' ', 'd', 'e', ' '], .number, .lit [' ', 's', 'e', 'm', 'a', 'n', 'a', 's']], .seqs [.lit ['d', 'e', 'n', 't', 'r', 'o', ' ', 'd', 'e', ' '], .number, .lit [' ', 'm', 'i', 'n', 'u', 't', 'o']], .seqs [.lit ['d', 'e', 'n', 't', 'r', 'o', ' ', 'd', 'e', ' '], .number, .lit [' ', 's', 'e', 'm', 'a', 'n', 'a']], .seqs [.lit ['d', 'e', 'n', 't', 'r', 'o', ' ', 'd', 'e', ' '], .number, .lit [' ', 'h', 'o', 'r', 'a', 's']], .seqs [.lit ['d', 'e', 'n', 't', 'r', 'o', ' ', 'd', 'e', ' '], .number, .lit [' ', 'm', 'e', 's', 'e', 's']], .seqs [.lit ['d', 'e', 'n', 't', 'r', 'o', ' ', 'd', 'e', ' '], .number, .lit [' ', 'a', 'n', 'o', 's']], .seqs [.lit ['d', 'e', 'n', 't', 'r', 'o', ' ', 'd', 'e', ' '], .number, .lit [' ', 'd', 'i', 'a', 's']], .seqs [.lit ['d', 'e', 'n', 't', 'r', 'o', ' ', 'd', 'e', ' '], .number, .lit [' ', 'h', 'o', 'r', 'a']], .seqs [.lit ['d', 'e', 'n', 't', 'r', 'o', ' ', 'd', 'e', ' '], .number, .lit [' ', 'a', 'n', 'o']], .seqs [.lit ['d', 'e', 'n', 't', 'r', 'o', ' ', 'd', 'e', ' '], .number, .lit [' ', 'd', 'i', 'a']], .seqs [.lit ['d', 'e', 'n', 't', 'r', 'o', ' ', 'd', 'e', ' '], .number, .lit [' ', 'm', 'e', 's']], .seqs [.lit ['d', 'e', 'n', 't', 'r', 'o', ' ', 'd', 'e', ' '], .number, .lit [' ', 'm', 'i', 'n']], .seqs [.lit ['d', 'e', 'n', 't', 'r', 'o', ' ', 'd', 'e', ' '], .number, .lit [' ', 's', 'e', 'm']], .seqs [.lit ['d', 'e', 'n', 't', 'r', 'o', ' ', 'd', 'e', ' '], .number, .lit [' ', 'h']], .seqs [.lit ['d', 'e', 'n', 't', 'r', 'o', ' ', 'd', 'e', ' '], .number, .lit [' ', 's']], .seqs [.lit ['e', 'm', ' '], .number, .lit [' ', 's', 'e', 'g', 'u', 'n', 'd', 'o', 's']], .seqs [.lit ['h', 'a', ' '], .number, .lit [' ', 's', 'e', 'g', 'u', 'n', 'd', 'o', 's']], .seqs [.lit ['e', 'm', ' '], .number, .lit [' ', 'm', 'i', 'n', 'u', 't', 'o', 's']], .seqs [.lit ['e', 'm', ' '], .number, .lit [' ', 's', 'e', 'g', 'u', 'n', 'd', 'o']], .seqs [.lit ['e', 'm', ' '], .number, .lit [' ', 's', 'e', 'm', 'a', 'n', 'a', 's']], .seqs [.lit ['h', 'a', ' '], .number, .lit [' ', 'm', 'i', 'n', 'u', 't', 'o', 's']], .seqs [.lit ['h', 'a', ' '], .number, .lit [' ', 's', 'e', 'g', 'u', 'n', 'd', 'o']], .seqs [.lit ['h', 'a', ' '], .number, .lit [' ', 's', 'e', 'm', 'a', 'n', 'a', 's']], .seqs [.lit ['e', 'm', ' '], .number, .lit [' ', 'm', 'i', 'n', 'u', 't', 'o']], .seqs [.lit ['e', 'm', ' '], .number, .lit [' ', 's', 'e', 'm', 'a', 'n', 'a']], .seqs [.lit ['h', 'a', ' '], .number, .lit [' ', 'm', 'i', 'n', 'u', 't', 'o']], .seqs [.lit ['h', 'a', ' '], .number, .lit [' ', 's', 'e', 'm', 'a', 'n', 'a']], .seqs [.lit ['e', 'm', ' '], .number, .lit [' ', 'h', 'o', 'r', 'a', 's']], .seqs [.lit ['e', 'm', ' '], .number, .lit [' ', 'm', 'e', 's', 'e', 's']], .seqs [.lit ['h', 'a', ' '], .number, .lit [' ', 'h', 'o', 'r', 'a', 's']], .seqs [.lit ['h', 'a', ' '], .number, .lit [' ', 'm', 'e', 's', 'e', 's']], .seqs [.lit ['e', 'm', ' '], .number, .lit [' ', 'a', 'n', 'o', 's']], .seqs [.lit ['e', 'm', ' '], .number, .lit [' ', 'd', 'i', 'a', 's']], .seqs [.lit ['e', 'm', ' '], .number, .lit [' ', 'h', 'o', 'r', 'a']], .seqs [.lit ['e', 'm', ' '], .number, .lit [' ', 'm', 'i', 'n', 's']], .seqs [.lit ['e', 'm', ' '], .number, .lit [' ', 's', 'e', 'g', 's']], .seqs [.lit ['h', 'a', ' '], .number, .lit [' ', 'a', 'n', 'o', 's']], .seqs [.lit ['h', 'a', ' '], .number, .lit [' ', 'd', 'i', 'a', 's']], .seqs [.lit ['h', 'a', ' '], .number, .lit [' ', 'h', 'o', 'r', 'a']], .seqs [.lit ['h', 'a', ' '], .number, .lit [' ', 'm', 'i', 'n', 's']], .seqs [.lit ['e', 'm', ' '], .number, .lit [' ', 'a', 'n', 'o']], .seqs [.lit ['e', 'm', ' '], .number, .lit [' ', 'd', 'i', 'a']], .seqs [.lit ['e', 'm', ' '], .number, .lit [' ', 'm', 'e', 's']], .seqs [.lit ['e', 'm', ' '], .number, .lit [' ', 'm', 'i', 'n']], .seqs [.lit ['e', 'm', ' '], .number, .lit [' ', 's', 'e', 'g']], .seqs [.lit ['e', 'm', ' '], .number, .lit [' ', 's', 'e', 'm']], .seqs [.lit ['h', 'a', ' '], .number, .lit [' ', 'a', 'n', 'o']], .seqs [.lit ['h', 'a', ' '], .number, .lit [' ', 'd', 'i', 'a']], .seqs [.lit ['h', 'a', ' '], .number, .lit [' ', 'm', 'e', 's']], .seqs [.lit ['h', 'a', ' '], .number, .lit [' ', 'm', 'i', 'n']], .seqs [.lit ['h', 'a', ' '], .number, .lit [' ', 's', 'e', 'g']], .seqs [.lit ['h', 'a', ' '], .number, .lit [' ', 's', 'e', 'm']], .seqs [.lit ['e', 'm', ' '], .number, .lit [' ', 'h']], .seqs [.lit ['h', 'a', ' '], .number, .lit [' ', 'h']], .seqs [.lit ['h', 'a', ' '], .number, .lit [' ', 's']]]), .eos]),
  knownWords :=
   [['p', 'r', 'o', 'x', 'i', 'm', 'a', ' ', 's', 'e', 'm', 'a', 'n', 'a'], ['s', 'e', 'm', 'a', 'n', 'a', ' ', 'p', 'a', 's', 's', 'a', 'd', 'a'], ['s', 'e', 'g', 'u', 'n', 'd', 'a', '-', 'f', 'e', 'i', 'r', 'a'], ['q', 'u', 'a', 'r', 't', 'a', '-', 'f', 'e', 'i', 'r', 'a'], ['q', 'u', 'i', 'n', 't', 'a', '-', 'f', 'e', 'i', 'r', 'a'], ['a', 'n', 'o', ' ', 'p', 'a', 's', 's', 'a', 'd', 'o'], ['e', 's', 't', 'a', ' ', 's', 'e', 'm', 'a', 'n', 'a'], ['e', 's', 't', 'e', ' ', 'm', 'i', 'n', 'u', 't', 'o'], ['m', 'e', 's', ' ', 'p', 'a', 's', 's', 'a', 'd', 'o'], ['p', 'r', 'o', 'x', 'i', 'm', 'o', ' ', 'a', 'n', 'o'], ['p', 'r', 'o', 'x', 'i', 'm', 'o', ' ', 'm', 'e', 's'], ['s', 'e', 'x', 't', 'a', '-', 'f', 'e', 'i', 'r', 'a'], ['t', 'e', 'r', 'c', 'a', '-', 'f', 'e', 'i', 'r', 'a'], ['a', 'n', 't', 'e', 'o', 'n', 't', 'e', 'm'], ['e', 's', 't', 'a', ' ', 'h', 'o', 'r', 'a'], ['f', 'e', 'v', 'e', 'r', 'e', 'i', 'r', 'o'], ['s', 'e', 'p', 't', 'e', 'm', 'b', 'r', 'o'], ['d', 'a', ' ', 'm', 'a', 'n', 'h', 'a'], ['d', 'a', ' ', 't', 'a', 'r', 'd', 'e'], ['d', 'e', 'z', 'e', 'm', 'b', 'r', 'o'], ['e', 's', 't', 'e', ' ', 'a', 'n', 'o'], ['e', 's', 't', 'e', ' ', 'm', 'e', 's'], ['n', 'o', 'v', 'e', 'm', 'b', 'r', 'o'], ['s', 'e', 'g', 'u', 'n', 'd', 'o', 's'], ['s', 'e', 't', 'e', 'm', 'b', 'r', 'o'], ['d', 'o', 'm', 'i', 'n', 'g', 'o'], ['j', 'a', 'n', 'e', 'i', 'r', 'o'], ['m', 'i', 'n', 'u', 't', 'o', 's'], ['o', 'u', 't', 'u', 'b', 'r', 'o'], ['s', 'e', 'g', 'u', 'n', 'd', 'a'], ['s', 'e', 'g', 'u', 'n', 'd', 'o'], ['s', 'e', 'm', 'a', 'n', 'a', 's'], ['a', 'g', 'o', 's', 't', 'o'], ['a', 'm', 'a', 'n', 'h', 'a'], ['m', 'i', 'n', 'u', 't', 'o'], ['q', 'u', 'a', 'r', 't', 'a'], ['q', 'u', 'i', 'n', 't', 'a'], ['s', 'a', 'b', 'a', 'd', 'o'], ['s', 'e', 'm', 'a', 'n', 'a'], ['a', 'b', 'r', 'i', 'l'], ['a', 'g', 'o', 'r', 'a'], ['a', 't', 'r', 'a', 's'], ['c', 'e', 'r', 'c', 'a'], ['h', 'o', 'r', 'a', 's'], ['j', 'u', 'l', 'h', 'o'], ['j', 'u', 'n', 'h', 'o'], ['m', 'a', 'n', 'h', 'a'], ['m', 'a', 'r', 'c', 'o'], ['m', 'e', 's', 'e', 's'], ['o', 'n', 't', 'e', 'm'], ['s', 'e', 'x', 't', 'a'], ['t', 'a', 'r', 'd', 'e'], ['t', 'e', 'r', 'c', 'a'], ['a', 'n', 'o', 's'], ['d', 'i', 'a', 's'], ['h', 'o', 'j', 'e'], ['h', 'o', 'r', 'a'], ['m', 'a', 'i', 'o'], ['a', 'b', 'r'], ['a', 'g', 'o'], ['a', 'n', 'o'], ['d', 'e', 'z'], ['d', 'i', 'a'], ['d', 'o', 'm'], ['f', 'e', 'v'], ['g', 'm', 't'], ['j', 'a', 'n'], ['j', 'u', 'l'], ['j', 'u', 'n'], ['m', 'a', 'i'], ['m', 'a', 'r'], ['m', 'e', 's'], ['m', 'i', 'n'], ['n', 'o', 'v'], ['o', 'u', 't'], ['q', 'u', 'a'], ['q', 'u', 'i'], ['s', 'a', 'b'], ['s', 'e', 'g'], ['s', 'e', 'm'], ['s', 'e', 't'], ['s', 'e', 'x'], ['t', 'e', 'r'], ['u', 't', 'c'], ['a', 'm'], ['a', 's'], ['d', 'e'], ['e', 'm'], ['h', 'a'], ['p', 'm'], [' '], ['\''], ['+'], [','], ['-'], ['.'], ['/'], [':'], [';'], ['@'], ['['], [']'], ['e'], ['h'], ['m'], ['s'], ['z'], ['|']] }

/-- internal/data/pt.go: `pt_PT_Locale`. -/
def pt_PTLang : LangData := { pt_PTDict with
  relativeRegexes :=
   [(.seqs [.lit ['d', 'e', 'n', 't', 'r', 'o', ' ', 'd', 'e', ' '], .grp 1 (.number), .lit [' ', 's', 'e', 'g', 'u', 'n', 'd', 'o', 's']], [.lit ['i', 'n', ' '], .ref 1, .lit [' ', 's', 'e', 'c', 'o', 'n', 'd']]),
    (.seqs [.lit ['d', 'e', 'n', 't', 'r', 'o', ' ', 'd', 'e', ' '], .grp 1 (.number), .lit [' ', 'm', 'i', 'n', 'u', 't', 'o', 's']], [.lit ['i', 'n', ' '], .ref 1, .lit [' ', 'm', 'i', 'n', 'u', 't', 'e']]),
    (.seqs [.lit ['d', 'e', 'n', 't', 'r', 'o', ' ', 'd', 'e', ' '], .grp 1 (.number), .lit [' ', 's', 'e', 'g', 'u', 'n', 'd', 'o']], [.lit ['i', 'n', ' '], .ref 1, .lit [' ', 's', 'e', 'c', 'o', 'n', 'd']]),
    (.seqs [.lit ['d', 'e', 'n', 't', 'r', 'o', ' ', 'd', 'e', ' '], .grp 1 (.number), .lit [' ', 's', 'e', 'm', 'a', 'n', 'a', 's']], [.lit ['i', 'n', ' '], .ref 1, .lit [' ', 'w', 'e', 'e', 'k']]),
    (.seqs [.lit ['d', 'e', 'n', 't', 'r', 'o', ' ', 'd', 'e', ' '], .grp 1 (.number), .lit [' ', 'm', 'i', 'n', 'u', 't', 'o']], [.lit ['i', 'n', ' '], .ref 1, .lit [' ', 'm', 'i', 'n', 'u', 't', 'e']]),
    (.seqs [.lit ['d', 'e', 'n', 't', 'r', 'o', ' ', 'd', 'e', ' '], .grp 1 (.number), .lit [' ', 's', 'e', 'm', 'a', 'n', 'a']], [.lit ['i', 'n', ' '], .ref 1, .lit [' ', 'w', 'e', 'e', 'k']]),
    (.seqs [.lit ['d', 'e', 'n', 't', 'r', 'o', ' ', 'd', 'e', ' '], .grp 1 (.number), .lit [' ', 'h', 'o', 'r', 'a', 's']], [.lit ['i', 'n', ' '], .ref 1, .lit [' ', 'h', 'o', 'u', 'r']]),
    (.seqs [.lit ['d', 'e', 'n', 't', 'r', 'o', ' ', 'd', 'e', ' '], .grp 1 (.number), .lit [' ', 'm', 'e', 's', 'e', 's']], [.lit ['i', 'n', ' '], .ref 1, .lit [' ', 'm', 'o', 'n', 't', 'h']]),
    (.seqs [.lit ['d', 'e', 'n', 't', 'r', 'o', ' ', 'd', 'e', ' '], .grp 1 (.number), .lit [' ', 'a', 'n', 'o', 's']], [.lit ['i', 'n', ' '], .ref 1, .lit [' ', 'y', 'e', 'a', 'r']]),
    (.seqs [.lit ['d', 'e', 'n', 't', 'r', 'o', ' ', 'd', 'e', ' '], .grp 1 (.number), .lit [' ', 'd', 'i', 'a', 's']], [.lit ['i', 'n', ' '], .ref 1, .lit [' ', 'd', 'a', 'y']]),
    (.seqs [.lit ['d', 'e', 'n', 't', 'r', 'o', ' ', 'd', 'e', ' '], .grp 1 (.number), .lit [' ', 'h', 'o', 'r', 'a']], [.lit ['i', 'n', ' '], .ref 1, .lit [' ', 'h', 'o', 'u', 'r']]),
    (.seqs [.lit ['d', 'e', 'n', 't', 'r', 'o', ' ', 'd', 'e', ' '], .grp 1 (.number), .lit [' ', 'a', 'n', 'o']], [.lit ['i', 'n', ' '], .ref 1, .lit [' ', 'y', 'e', 'a', 'r']]),
    (.seqs [.lit ['d', 'e', 'n', 't', 'r', 'o', ' ', 'd', 'e', ' '], .grp 1 (.number), .lit [' ', 'd', 'i', 'a']], [.lit ['i', 'n', ' '], .ref 1, .lit [' ', 'd', 'a', 'y']]),
    (.seqs [.lit ['d', 'e', 'n', 't', 'r', 'o', ' ', 'd', 'e', ' '], .grp 1 (.number), .lit [' ', 'm', 'e', 's']], [.lit ['i', 'n', ' '], .ref 1, .lit [' ', 'm', 'o', 'n', 't', 'h']]),
    (.seqs [.lit ['d', 'e', 'n', 't', 'r', 'o', ' ', 'd', 'e', ' '], .grp 1 (.number), .lit [' ', 'm', 'i', 'n']], [.lit ['i', 'n', ' '], .ref 1, .lit [' ', 'm', 'i', 'n', 'u', 't', 'e']]),
    (.seqs [.lit ['d', 'e', 'n', 't', 'r', 'o', ' ', 'd', 'e', ' '], .grp 1 (.number), .lit [' ', 's', 'e', 'm']], [.lit ['i', 'n', ' '], .ref 1, .lit [' ', 'w', 'e', 'e', 'k']]),
    (.seqs [.lit ['d', 'e', 'n', 't', 'r', 'o', ' ', 'd', 'e', ' '], .grp 1 (.number), .lit [' ', 'h']], [.lit ['i', 'n', ' '], .ref 1, .lit [' ', 'h', 'o', 'u', 'r']]),
    (.seqs [.lit ['d', 'e', 'n', 't', 'r', 'o', ' ', 'd', 'e', ' '], .grp 1 (.number), .lit [' ', 's']], [.lit ['i', 'n', ' '], .ref 1, .lit [' ', 's', 'e', 'c', 'o', 'n', 'd']]),
    (.seqs [.lit ['h', 'a', ' '], .grp 1 (.number), .lit [' ', 's']], [.ref 1, .lit [' ', 's', 'e', 'c', 'o', 'n', 'd', ' ', 'a', 'g', 'o']])],
  rxCombined := some (.seqs [.grp 1 (.alts [.bos, .cls true [.letter, .mark, .digit], .lit ['_']]), .grp 2 (.alts [.seqs [.lit ['d', 'e', 'n', 't', 'r', 'o', ' ', 'd', 'e', ' '], .number, .lit [' ', 's', 'e', 'g', 'u', 'n', 'd', 'o', 's']], .seqs [.lit ['d', 'e', 'n', 't', 'r', 'o', ' ', 'd', 'e', ' '], .number, .lit [' ', 'm', 'i', 'n', 'u', 't', 'o', 's']], .seqs [.lit ['d', 'e', 'n', 't', 'r', 'o', ' ', 'd', 'e', ' '], .number, .lit [' ', 's', 'e', 'g', 'u', 'n', 'd', 'o']], .seqs [.lit ['d', 'e', 'n', 't', 'r', 'o', ' ', 'd', 'e', ' '], .number, .lit [' ', 's', 'e', 'm', 'a', 'n', 'a', 's']], .seqs [.lit ['d', 'e', 'n', 't', 'r', 'o', ' ', 'd', 'e', ' '], .number, .lit [' ', 'm', 'i', 'n', 'u', 't', 'o']], .seqs [.lit ['d', 'e', 'n', 't', 'r', 'o', ' ', 'd', 'e', ' '], .number, .lit [' ', 's', 'e', 'm', 'a', 'n', 'a']], .seqs [.lit ['d', 'e', 'n', 't', 'r', 'o', ' ', 'd', 'e', ' '], .number, .lit [' ', 'h', 'o', 'r', 'a', 's']], .seqs [.lit ['d', 'e', 'n', 't', 'r', 'o', ' ', 'd', 'e', ' '], .number, .lit [' ', 'm', 'e', 's', 'e', 's']], .seqs [.lit ['d', 'e', 'n', 't', 'r', 'o', ' ', 'd', 'e', ' '], .number, .lit [' ', 'a', 'n', 'o', 's']], .seqs [.lit ['d', 'e', 'n', 't', 'r', 'o', ' ', 'd', 'e', ' '], .number, .lit [' ', 'd', 'i', 'a', 's']], .seqs [.lit ['d', 'e', 'n', 't', 'r', 'o', ' ', 'd', 'e', ' '], .number, .lit [' ', 'h', 'o', 'r', 'a']], .seqs [.lit ['d', 'e', 'n', 't', 'r', 'o', ' ', 'd', 'e', ' '], .number, .lit [' ', 'a', 'n', 'o']], .seqs [.lit ['d', 'e', 'n', 't', 'r', 'o', ' ', 'd', 'e', ' '], .number, .lit [' ', 'd', 'i', 'a']], .seqs [.lit ['d', 'e', 'n', 't', 'r', 'o', ' ', 'd', 'e', ' '], .number, .lit [' ', 'm', 'e', 's']], .seqs [.lit ['d', 'e', 'n', 't', 'r', 'o', ' ', 'd', 'e', ' '], .number, .lit [' ', 'm', 'i', 'n']], .seqs [.lit ['d', 'e', 'n', 't', 'r', 'o', ' ', 'd', 'e', ' '], .number, .lit [' ', 's', 'e', 'm']], .seqs [.lit ['d', 'e', 'n', 't', 'r', 'o', ' ', 'd', 'e', ' '], .number, .lit [' ', 'h']], .seqs [.lit ['d', 'e', 'n', 't', 'r', 'o', ' ', 'd', 'e', ' '], .number, .lit [' ', 's']], .seqs [.lit ['e', 'm', ' '], .number, .lit [' ', 's', 'e', 'g', 'u', 'n', 'd', 'o', 's']], .seqs [.lit ['h', 'a', ' '], .number, .lit [' ', 's', 'e', 'g', 'u', 'n', 'd', 'o', 's']], .seqs [.lit ['e', 'm', ' '], .number, .lit [' ', 'm', 'i', 'n', 'u', 't', 'o', 's']], .seqs [.lit ['e', 'm', ' '], .number, .lit [' ', 's', 'e', 'g', 'u', 'n', 'd', 'o']], .seqs [.lit ['e', 'm', ' '], .number, .lit [' ', 's', 'e', 'm', 'a', 'n', 'a', 's']], .seqs [.lit ['h', 'a', ' '], .number, .lit [' ', 'm', 'i', 'n', 'u', 't', 'o', 's']], .seqs [.lit ['h', 'a', ' '], .number, .lit [' ', 's', 'e', 'g', 'u', 'n', 'd', 'o']], .seqs [.lit ['h', 'a', ' '], .number, .lit [' ', 's', 'e', 'm', 'a', 'n', 'a', 's']], .seqs [.lit ['e', 'm', ' '], .number, .lit [' ', 'm', 'i', 'n', 'u', 't', 'o']], .seqs [.lit ['e', 'm', ' '], .number, .lit [' ', 's', 'e', 'm', 'a', 'n', 'a']], .seqs [.lit ['h', 'a', ' '], .number, .lit [' ', 'm', 'i', 'n', 'u', 't', 'o']], .seqs [.lit ['h', 'a', ' '], .number, .lit [' ', 's', 'e', 'm', 'a', 'n', 'a']], .seqs [.lit ['e', 'm', ' '], .number, .lit [' ', 'h', 'o', 'r', 'a', 's']], .seqs [.lit ['e', 'm', ' '], .number, .lit [' ', 'm', 'e', 's', 'e', 's']], .seqs [.lit ['h', 'a', ' '], .number, .lit [' ', 'h', 'o', 'r', 'a', 's']], .seqs [.lit ['h', 'a', ' '], .number, .lit [' ', 'm', 'e', 's', 'e', 's']], .seqs [.lit ['e', 'm', ' '], .number, .lit [' ', 'a', 'n', 'o', 's']], .seqs [.lit ['e', 'm', ' '], .number, .lit [' ', 'd', 'i', 'a', 's']], .seqs [.lit ['e', 'm', ' '], .number, .lit [' ', 'h', 'o', 'r', 'a']], .seqs [.lit ['e', 'm', ' '], .number, .lit [' ', 'm', 'i', 'n', 's']], .seqs [.lit ['e', 'm', ' '], .number, .lit [' ', 's', 'e', 'g', 's']], .seqs [.lit ['h', 'a', ' '], .number, .lit [' ', 'a', 'n', 'o', 's']], .seqs [.lit ['h', 'a', ' '], .number, .lit [' ', 'd', 'i', 'a', 's']], .seqs [.lit ['h', 'a', ' '], .number, .lit [' ', 'h', 'o', 'r', 'a']], .seqs [.lit ['h', 'a', ' '], .number, .lit [' ', 'm', 'i', 'n', 's']], .seqs [.lit ['e', 'm', ' '], .number, .lit [' ', 'a', 'n', 'o']], .seqs [.lit ['e', 'm', ' '], .number, .lit [' ', 'd', 'i', 'a']], .seqs [.lit ['e', 'm', ' '], .number, .lit [' ', 'm', 'e', 's']], .seqs [.lit ['e', 'm', ' '], .number, .lit [' ', 'm', 'i', 'n']], .seqs [.lit ['e', 'm', ' '], .number, .lit [' ', 's', 'e', 'g']], .seqs [.lit ['e', 'm', ' '], .number, .lit [' ', 's', 'e', 'm']], .seqs [.lit ['h', 'a', ' '], .number, .lit [' ', 'a', 'n', 'o']], .seqs [.lit ['h', 'a', ' '], .number, .lit [' ', 'd', 'i', 'a']], .seqs [.lit ['h', 'a', ' '], .number, .lit [' ', 'm', 'e', 's']], .seqs [.lit ['h', 'a', ' '], .number, .lit [' ', 'm', 'i', 'n']], .seqs [.lit ['h', 'a', ' '], .number, .lit [' ', 's', 'e', 'g']], .seqs [.lit ['h', 'a', ' '], .number, .lit [' ', 's', 'e', 'm']], .seqs [.lit ['e', 'm', ' '], .number, .lit [' ', 'h']], .seqs [.lit ['h', 'a', ' '], .number, .lit [' ', 'h']], .seqs [.lit ['h', 'a', ' '], .number, .lit [' ', 's']]]), .grp 3 (.alts [.eos, .cls true [.letter, .mark, .digit], .lit ['_']])], 3),
  rxExact := some (.seqs [.bos, .grp 1 (.alts [.seqs [.lit ['d', 'e', 'n', 't', 'r', 'o', ' ', 'd', 'e', ' '], .number, .lit [' ', 's', 'e', 'g', 'u', 'n', 'd', 'o', 's']], .seqs [.lit ['d', 'e', 'n', 't', 'r', 'o', ' ', 'd', 'e', ' '], .number, .lit [' ', 'm', 'i', 'n', 'u', 't', 'o', 's']], .seqs [.lit ['d', 'e', 'n', 't', 'r', 'o', ' ', 'd', 'e', ' '], .number, .lit [' ', 's', 'e', 'g', 'u', 'n', 'd', 'o']], .seqs [.lit ['d', 'e', 'n', 't', 'r', 'o', ' ', 'd', 'e', ' '], .number, .lit [' ', 's', 'e', 'm', 'a', 'n', 'a', 's']], .seqs [.lit ['d', 'e', 'n', 't', 'r', 'o', ' ', 'd', 'e', ' '], .number, .lit [' ', 'm', 'i', 'n', 'u', 't', 'o']], .seqs [.lit ['d', 'e', 'n', 't', 'r', 'o', ' ', 'd', 'e', ' '], .number, .lit [' ', 's', 'e', 'm', 'a', 'n', 'a']], .seqs [.lit ['d', 'e', 'n', 't', 'r', 'o', ' ', 'd', 'e', ' '], .number, .lit [' ', 'h', 'o', 'r', 'a', 's']], .seqs [.lit ['d', 'e', 'n', 't', 'r', 'o', ' ', 'd', 'e', ' '], .number, .lit [' ', 'm', 'e', 's', 'e', 's']], .seqs [.lit ['d', 'e', 'n', 't', 'r', 'o', ' ', 'd', 'e', ' '], .number, .lit [' ', 'a', 'n', 'o', 's']], .seqs [.lit ['d', 'e', 'n', 't', 'r', 'o', ' ', 'd', 'e', ' '], .number, .lit [' ', 'd', 'i', 'a', 's']], .seqs [.lit ['d', 'e', 'n', 't', 'r', 'o', ' ', 'd', 'e', ' '], .number, .lit [' ', 'h', 'o', 'r', 'a']], .seqs [.lit ['d', 'e', 'n', 't', 'r', 'o', ' ', 'd', 'e', ' '], .number, .lit [' ', 'a', 'n', 'o']], .seqs [.lit ['d', 'e', 'n', 't', 'r', 'o', ' ', 'd', 'e', ' '], .number, .lit [' ', 'd', 'i', 'a']], .seqs [.lit ['d', 'e', 'n', 't', 'r', 'o', ' ', 'd', 'e', ' '], .number, .lit [' ', 'm', 'e', 's']], .seqs [.lit ['d', 'e', 'n', 't', 'r', 'o', ' ', 'd', 'e', ' '], .number, .lit [' ', 'm', 'i', 'n']], .seqs [.lit ['d', 'e', 'n', 't', 'r', 'o', ' ', 'd', 'e', ' '], .number, .lit [' ', 's', 'e', 'm']], .seqs [.lit ['d', 'e', 'n', 't', 'r', 'o', ' ', 'd', 'e', ' '], .number, .lit [' ', 'h']], .seqs [.lit ['d', 'e', 'n', 't', 'r', 'o', ' ', 'd', 'e', ' '], .number, .lit [' ', 's']], .seqs [.lit ['e', 'm', ' '], .number, .lit [' ', 's', 'e', 'g', 'u', 'n', 'd', 'o', 's']], .seqs [.lit ['h', 'a', ' '], .number, .lit [' ', 's', 'e', 'g', 'u', 'n', 'd', 'o', 's']], .seqs [.lit ['e', 'm', ' '], .number, .lit [' ', 'm', 'i', 'n', 'u', 't', 'o', 's']], .seqs [.lit ['e', 'm', ' '], .number, .lit [' ', 's', 'e', 'g', 'u', 'n', 'd', 'o']], .seqs [.lit ['e', 'm', ' '], .number, .lit [' ', 's', 'e', 'm', 'a', 'n', 'a', 's']], .seqs [.lit ['h', 'a', ' '], .number, .lit [' ', 'm', 'i', 'n', 'u', 't', 'o', 's']], .seqs [.lit ['h', 'a', ' '], .number, .lit [' ', 's', 'e', 'g', 'u', 'n', 'd', 'o']], .seqs [.lit ['h', 'a', ' '], .number, .lit [' ', 's', 'e', 'm', 'a', 'n', 'a', 's']], .seqs [.lit ['e', 'm', ' '], .number, .lit [' ', 'm', 'i', 'n', 'u', 't', 'o']], .seqs [.lit ['e', 'm', ' '], .number, .lit [' ', 's', 'e', 'm', 'a', 'n', 'a']], .seqs [.lit ['h', 'a', ' '], .number, .lit [' ', 'm', 'i', 'n', 'u', 't', 'o']], .seqs [.lit ['h', 'a', ' '], .number, .lit [' ', 's', 'e', 'm', 'a', 'n', 'a']], .seqs [.lit ['e', 'm', ' '], .number, .lit [' ', 'h', 'o', 'r', 'a', 's']], .seqs [.lit ['e', 'm', ' '], .number, .lit [' ', 'm', 'e', 's', 'e', 's']], .seqs [.lit ['h', 'a', ' '], .number, .lit [' ', 'h', 'o', 'r', 'a', 's']], .seqs [.lit ['h', 'a', ' '], .number, .lit [' ', 'm', 'e', 's', 'e', 's']], .seqs [.lit ['e', 'm', ' '], .number, .lit [' ', 'a', 'n', 'o', 's']], .seqs [.lit ['e', 'm', ' '], .number, .lit [' ', 'd', 'i', 'a', 's']], .seqs [.lit ['e', 'm', ' '], .number, .lit [' ', 'h', 'o', 'r', 'a']], .seqs [.lit ['e', 'm', ' '], .number, .lit [' ', 'm', 'i', 'n', 's']], .seqs [.lit ['e', 'm', ' '], .number, .lit [' ', 's', 'e', 'g', 's']], .seqs [.lit ['h', 'a', ' '], .number, .lit [' ', 'a', 'n', 'o', 's']], .seqs [.lit ['h', 'a', ' '], .number, .lit [' ', 'd', 'i', 'a', 's']], .seqs [.lit ['h', 'a', ' '], .number, .lit [' ', 'h', 'o', 'r', 'a']], .seqs [.lit ['h', 'a', ' '], .number, .lit [' ', 'm', 'i', 'n', 's']], .seqs [.lit ['e', 'm', ' '], .number, .lit [' ', 'a', 'n', 'o']], .seqs [.lit ['e', 'm', ' '], .number, .lit [' ', 'd', 'i', 'a']], .seqs [.lit ['e', 'm', ' '], .number, .lit [' ', 'm', 'e', 's']], .seqs [.lit ['e', 'm', ' '], .number, .lit [' ', 'm', 'i', 'n']], .seqs [.lit ['e', 'm', ' '], .number, .lit [' ', 's', 'e', 'g']], .seqs [.lit ['e', 'm', ' '], .number, .lit [' ', 's', 'e', 'm']], .seqs [.lit ['h', 'a', ' '], .number, .lit [' ', 'a', 'n', 'o']], .seqs [.lit ['h', 'a', ' '], .number, .lit [' ', 'd', 'i', 'a']], .seqs [.lit ['h', 'a', ' '], .number, .lit [' ', 'm', 'e', 's']], .seqs [.lit ['h', 'a', ' '], .number, .lit [' ', 'm', 'i', 'n']], .seqs [.lit ['h', 'a', ' '], .number, .lit [' ', 's', 'e', 'g']], .seqs [.lit ['h', 'a', ' '], .number, .lit [' ', 's', 'e', 'm']], .seqs [.lit ['e', 'm', ' '], .number, .lit [' ', 'h']], .seqs [.lit ['h', 'a', ' '], .number, .lit [' ', 'h']], .seqs [.lit ['h', 'a', ' '], .number, .lit [' ', 's']]]), .eos]),
  knownWords :=
   [['p', 'r', 'o', 'x', 'i', 'm', 'a', ' ', 's', 'e', 'm', 'a', 'n', 'a'], ['s', 'e', 'm', 'a', 'n', 'a', ' ', 'p', 'a', 's', 's', 'a', 'd', 'a'], ['s', 'e', 'g', 'u', 'n', 'd', 'a', '-', 'f', 'e', 'i', 'r', 'a'], ['q', 'u', 'a', 'r', 't', 'a', '-', 'f', 'e', 'i', 'r', 'a'], ['q', 'u', 'i', 'n', 't', 'a', '-', 'f', 'e', 'i', 'r', 'a'], ['a', 'n', 'o', ' ', 'p', 'a', 's', 's', 'a', 'd', 'o'], ['e', 's', 't', 'a', ' ', 's', 'e', 'm', 'a', 'n', 'a'], ['e', 's', 't', 'e', ' ', 'm', 'i', 'n', 'u', 't', 'o'], ['m', 'e', 's', ' ', 'p', 'a', 's', 's', 'a', 'd', 'o'], ['p', 'r', 'o', 'x', 'i', 'm', 'o', ' ', 'a', 'n', 'o'], ['p', 'r', 'o', 'x', 'i', 'm', 'o', ' ', 'm', 'e', 's'], ['s', 'e', 'x', 't', 'a', '-', 'f', 'e', 'i', 'r', 'a'], ['t', 'e', 'r', 'c', 'a', '-', 'f', 'e', 'i', 'r', 'a'], ['a', 'n', 't', 'e', 'o', 'n', 't', 'e', 'm'], ['e', 's', 't', 'a', ' ', 'h', 'o', 'r', 'a'], ['f', 'e', 'v', 'e', 'r', 'e', 'i', 'r', 'o'], ['s', 'e', 'p', 't', 'e', 'm', 'b', 'r', 'o'], ['d', 'a', ' ', 'm', 'a', 'n', 'h', 'a'], ['d', 'a', ' ', 't', 'a', 'r', 'd', 'e'], ['d', 'e', 'z', 'e', 'm', 'b', 'r', 'o'], ['e', 's', 't', 'e', ' ', 'a', 'n', 'o'], ['e', 's', 't', 'e', ' ', 'm', 'e', 's'], ['n', 'o', 'v', 'e', 'm', 'b', 'r', 'o'], ['s', 'e', 'g', 'u', 'n', 'd', 'o', 's'], ['s', 'e', 't', 'e', 'm', 'b', 'r', 'o'], ['d', 'o', 'm', 'i', 'n', 'g', 'o'], ['j', 'a', 'n', 'e', 'i', 'r', 'o'], ['m', 'i', 'n', 'u', 't', 'o', 's'], ['o', 'u', 't', 'u', 'b', 'r', 'o'], ['s', 'e', 'g', 'u', 'n', 'd', 'a'], ['s', 'e', 'g', 'u', 'n', 'd', 'o'], ['s', 'e', 'm', 'a', 'n', 'a', 's'], ['a', 'g', 'o', 's', 't', 'o'], ['a', 'm', 'a', 'n', 'h', 'a'], ['m', 'i', 'n', 'u', 't', 'o'], ['q', 'u', 'a', 'r', 't', 'a'], ['q', 'u', 'i', 'n', 't', 'a'], ['s', 'a', 'b', 'a', 'd', 'o'], ['s', 'e', 'm', 'a', 'n', 'a'], ['a', 'b', 'r', 'i', 'l'], ['a', 'g', 'o', 'r', 'a'], ['a', 't', 'r', 'a', 's'], ['c', 'e', 'r', 'c', 'a'], ['h', 'o', 'r', 'a', 's'], ['j', 'u', 'l', 'h', 'o'], ['j', 'u', 'n', 'h', 'o'], ['m', 'a', 'n', 'h', 'a'], ['m', 'a', 'r', 'c', 'o'], ['m', 'e', 's', 'e', 's'], ['o', 'n', 't', 'e', 'm'], ['s', 'e', 'x', 't', 'a'], ['t', 'a', 'r', 'd', 'e'], ['t', 'e', 'r', 'c', 'a'], ['a', 'n', 'o', 's'], ['d', 'i', 'a', 's'], ['h', 'o', 'j', 'e'], ['h', 'o', 'r', 'a'], ['m', 'a', 'i', 'o'], ['a', 'b', 'r'], ['a', 'g', 'o'], ['a', 'n', 'o'], ['d', 'e', 'z'], ['d', 'i', 'a'], ['d', 'o', 'm'], ['f', 'e', 'v'], ['g', 'm', 't'], ['j', 'a', 'n'], ['j', 'u', 'l'], ['j', 'u', 'n'], ['m', 'a', 'i'], ['m', 'a', 'r'], ['m', 'e', 's'], ['m', 'i', 'n'], ['n', 'o', 'v'], ['o', 'u', 't'], ['q', 'u', 'a'], ['q', 'u', 'i'], ['s', 'a', 'b'], ['s', 'e', 'g'], ['s', 'e', 'm'], ['s', 'e', 't'], ['s', 'e', 'x'], ['t', 'e', 'r'], ['u', 't', 'c'], ['a', 'm'], ['a', 's'], ['d', 'e'], ['e', 'm'], ['h', 'a'], ['p', 'm'], [' '], ['\''], ['+'], [','], ['-'], ['.'], ['/'], [':'], [';'], ['@'], ['['], [']'], ['e'], ['h'], ['m'], ['s'], ['z'], ['|']] }

/-- internal/data/pt.go: `pt_ST_Locale`. -/
def pt_STLang : LangData := { pt_STDict with
  relativeRegexes :=
   [(.seqs [.lit ['d', 'e', 'n', 't', 'r', 'o', ' ', 'd', 'e', ' '], .grp 1 (.number), .lit [' ', 's', 'e', 'g', 'u', 'n', 'd', 'o', 's']], [.lit ['i', 'n', ' '], .ref 1, .lit [' ', 's', 'e', 'c', 'o', 'n', 'd']]),
    (.seqs [.lit ['d', 'e', 'n', 't', 'r', 'o', ' ', 'd', 'e', ' '], .grp 1 (.number), .lit [' ', 'm', 'i', 'n', 'u', 't', 'o', 's']], [.lit ['i', 'n', ' '], .ref 1, .lit [' ', 'm', 'i', 'n', 'u', 't', 'e']]),
    (.seqs [.lit ['d', 'e', 'n', 't', 'r', 'o', ' ', 'd', 'e', ' '], .grp 1 (.number), .lit [' ', 's', 'e', 'g', 'u', 'n', 'd', 'o']], [.lit ['i', 'n', ' '], .ref 1, .lit [' ', 's', 'e', 'c', 'o', 'n', 'd']]),
    (.seqs [.lit ['d', 'e', 'n', 't', 'r', 'o', ' ', 'd', 'e', ' '], .grp 1 (.number), .lit [' ', 's', 'e', 'm', 'a', 'n', 'a', 's']], [.lit ['i', 'n', ' '], .ref 1, .lit [' ', 'w', 'e', 'e', 'k']]),
    (.seqs [.lit ['d', 'e', 'n', 't', 'r', 'o', ' ', 'd', 'e', ' '], .grp 1 (.number), .lit [' ', 'm', 'i', 'n', 'u', 't', 'o']], [.lit ['i', 'n', ' '], .ref 1, .lit [' ', 'm', 'i', 'n', 'u', 't', 'e']]),
    (.seqs [.lit ['d', 'e', 'n', 't', 'r', 'o', ' ', 'd', 'e', ' '], .grp 1 (.number), .lit [' ', 's', 'e', 'm', 'a', 'n', 'a']], [.lit ['i', 'n', ' '], .ref 1, .lit [' ', 'w', 'e', 'e', 'k']]),
    (.seqs [.lit ['d', 'e', 'n', 't', 'r', 'o', ' ', 'd', 'e', ' '], .grp 1 (.number), .lit [' ', 'h', 'o', 'r', 'a', 's']], [.lit ['i', 'n', ' '], .ref 1, .lit [' ', 'h', 'o', 'u', 'r']]),
    (.seqs [.lit ['d', 'e', 'n', 't', 'r', 'o', ' ', 'd', 'e', ' '], .grp 1 (.number), .lit [' ', 'm', 'e', 's', 'e', 's']], [.lit ['i', 'n', ' '], .ref 1, .lit [' ', 'm', 'o', 'n', 't', 'h']]),
    (.seqs [.lit ['d', 'e', 'n', 't', 'r', 'o', ' ', 'd', 'e', ' '], .grp 1 (.number), .lit [' ', 'a', 'n', 'o', 's']], [.lit ['i', 'n', ' '], .ref 1, .lit [' ', 'y', 'e', 'a', 'r']]),
    (.seqs [.lit ['d', 'e', 'n', 't', 'r', 'o', ' ', 'd', 'e', ' '], .grp 1 (.number), .lit [' ', 'd', 'i', 'a', 's']], [.lit ['i', 'n', ' '], .ref 1, .lit [' ', 'd', 'a', 'y']]),
    (.seqs [.lit ['d', 'e', 'n', 't', 'r', 'o', ' ', 'd', 'e', ' '], .grp 1 (.number), .lit [' ', 'h', 'o', 'r', 'a']], [.lit ['i', 'n', ' '], .ref 1, .lit [' ', 'h', 'o', 'u', 'r']]),
    (.seqs [.lit ['d', 'e', 'n', 't', 'r', 'o', ' ', 'd', 'e', ' '], .grp 1 (.number), .lit [' ', 'a', 'n', 'o']], [.lit ['i', 'n', ' '], .ref 1, .lit [' ', 'y', 'e', 'a', 'r']]),
    (.seqs [.lit ['d', 'e', 'n', 't', 'r', 'o', ' ', 'd', 'e', ' '], .grp 1 (.number), .lit [' ', 'd', 'i', 'a']], [.lit ['i', 'n', ' '], .ref 1, .lit [' ', 'd', 'a', 'y']]),
    (.seqs [.lit ['d', 'e', 'n', 't', 'r', 'o', ' ', 'd', 'e', ' '], .grp 1 (.number), .lit [' ', 'm', 'e', 's']], [.lit ['i', 'n', ' '], .ref 1, .lit [' ', 'm', 'o', 'n', 't', 'h']]),
    (.seqs [.lit ['d', 'e', 'n', 't', 'r', 'o', ' ', 'd', 'e', ' '], .grp 1 (.number), .lit [' ', 'm', 'i', 'n']], [.lit ['i', 'n', ' '], .ref 1, .lit [' ', 'm', 'i', 'n', 'u', 't', 'e']]),
    (.seqs [.lit ['d', 'e', 'n', 't', 'r', 'o', ' ', 'd', 'e', ' '], .grp 1 (.number), .lit [' ', 's', 'e', 'm']], [.lit ['i', 'n', ' '], .ref 1, .lit [' ', 'w', 'e', 'e', 'k']]),
    (.seqs [.lit ['d', 'e', 'n', 't', 'r', 'o', ' ', 'd', 'e', ' '], .grp 1 (.number), .lit [' ', 'h']], [.lit ['i', 'n', ' '], .ref 1, .lit [' ', 'h', 'o', 'u', 'r']]),
    (.seqs [.lit ['d', 'e', 'n', 't', 'r', 'o', ' ', 'd', 'e', ' '], .grp 1 (.number), .lit [' ', 's']], [.lit ['i', 'n', ' '], .ref 1, .lit [' ', 's', 'e', 'c', 'o', 'n', 'd']]),
    (.seqs [.lit ['h', 'a', ' '], .grp 1 (.number), .lit [' ', 's']], [.ref 1, .lit [' ', 's', 'e', 'c', 'o', 'n', 'd', ' ', 'a', 'g', 'o']])],
  rxCombined := some (.seqs [.grp 1 (.alts [.bos, .cls true [.letter, .mark, .digit], .lit ['_']]), .grp 2 (.alts [.seqs [.lit ['d', 'e', 'n', 't', 'r', 'o', ' ', 'd', 'e', ' '], .number, .lit [' ', 's', 'e', 'g', 'u', 'n', 'd', 'o', 's']], .seqs [.lit ['d', 'e', 'n', 't', 'r', 'o', ' ', 'd', 'e', ' '], .number, .lit [' ', 'm', 'i', 'n', 'u', 't', 'o', 's']], .seqs [.lit ['d', 'e', 'n', 't', 'r', 'o', ' ', 'd', 'e', ' '], .number, .lit [' ', 's', 'e', 'g', 'u', 'n', 'd', 'o']], .seqs [.lit ['d', 'e', 'n', 't', 'r', 'o', ' ', 'd', 'e', ' '], .number, .lit [' ', 's', 'e', 'm', 'a', 'n', 'a', 's']], .seqs [.lit ['d', 'e', 'n', 't', 'r', 'o', ' ', 'd', 'e', ' '], .number, .lit [' ', 'm', 'i', 'n', 'u', 't', 'o']], .seqs [.lit ['d', 'e', 'n', 't', 'r', 'o', ' ', 'd', 'e', ' '], .number, .lit [' ', 's', 'e', 'm', 'a', 'n', 'a']], .seqs [.lit ['d', 'e', 'n', 't', 'r', 'o', ' ', 'd', 'e', ' '], .number, .lit [' ', 'h', 'o', 'r', 'a', 's']], .seqs [.lit ['d', 'e', 'n', 't', 'r', 'o', ' ', 'd', 'e', ' '], .number, .lit [' ', 'm', 'e', 's', 'e', 's']], .seqs [.lit ['d', 'e', 'n', 't', 'r', 'o', ' ', 'd', 'e', ' '], .number, .lit [' ', 'a', 'n', 'o', 's']], .seqs [.lit ['d', 'e', 'n', 't', 'r', 'o', ' ', 'd', 'e', ' '], .number, .lit [' ', 'd', 'i', 'a', 's']], .seqs [.lit ['d', 'e', 'n', 't', 'r', 'o', ' ', 'd', 'e', ' '], .number, .lit [' ', 'h', 'o', 'r', 'a']], .seqs [.lit ['d', 'e', 'n', 't', 'r', 'o', ' ', 'd', 'e', ' '], .number, .lit [' ', 'a', 'n', 'o']], .seqs [.lit ['d', 'e', 'n', 't', 'r', 'o', ' ', 'd', 'e', ' '], .number, .lit [' ', 'd', 'i', 'a']], .seqs [.lit ['d', 'e', 'n', 't', 'r', 'o', ' ', 'd', 'e', ' '], .number, .lit [' ', 'm', 'e', 's']], .seqs [.lit ['d', 'e', 'n', 't', 'r', 'o', ' ', 'd', 'e', ' '], .number, .lit [' ', 'm', 'i', 'n']], .seqs [.lit ['d', 'e', 'n', 't', 'r', 'o', ' ', 'd', 'e', ' '], .number, .lit [' ', 's', 'e', 'm']], .seqs [.lit ['d', 'e', 'n', 't', 'r', 'o', ' ', 'd', 'e', ' '], .number, .lit [' ', 'h']], .seqs [.lit ['d', 'e', 'n', 't', 'r', 'o', ' ', 'd', 'e', ' '], .number, .lit [' ', 's']], .seqs [.lit ['e', 'm', ' '], .number, .lit [' ', 's', 'e', 'g', 'u', 'n', 'd', 'o', 's']], .seqs [.lit ['h', 'a', ' '], .number, .lit [' ', 's', 'e', 'g', 'u', 'n', 'd', 'o', 's']], .seqs [.lit ['e', 'm', ' '], .number, .lit [' ', 'm', 'i', 'n', 'u', 't', 'o', 's']], .seqs [.lit ['e', 'm', ' '], .number, .lit [' ', 's', 'e', 'g', 'u', 'n', 'd', 'o']], .seqs [.lit ['e', 'm', ' '], .number, .lit [' ', 's', 'e', 'm', 'a', 'n', 'a', 's']], .seqs [.lit ['h', 'a', ' '], .number, .lit [' ', 'm', 'i', 'n', 'u', 't', 'o', 's']], .seqs [.lit ['h', 'a', ' '], .number, .lit [' ', 's', 'e', 'g', 'u', 'n', 'd', 'o']], .seqs [.lit ['h', 'a', ' '], .number, .lit [' ', 's', 'e', 'm', 'a', 'n', 'a', 's']], .seqs [.lit ['e', 'm', ' '], .number, .lit [' ', 'm', 'i', 'n', 'u', 't', 'o']], .seqs [.lit ['e', 'm', ' '], .number, .lit [' ', 's', 'e', 'm', 'a', 'n', 'a']], .seqs [.lit ['h', 'a', ' '], .number, .lit [' ', 'm', 'i', 'n', 'u', 't', 'o']], .seqs [.lit ['h', 'a', ' '], .number, .lit [' ', 's', 'e', 'm', 'a', 'n', 'a']], .seqs [.lit ['e', 'm', ' '], .number, .lit [' ', 'h', 'o', 'r', 'a', 's']], .seqs [.lit ['e', 'm', ' '], .number, .lit [' ', 'm', 'e', 's', 'e', 's']], .seqs [.lit ['h', 'a', ' '], .number, .lit [' ', 'h', 'o', 'r', 'a', 's']], .seqs [.lit ['h', 'a', ' '], .number, .lit [' ', 'm', 'e', 's', 'e', 's']], .seqs [.lit ['e', 'm', ' '], .number, .lit [' ', 'a', 'n', 'o', 's']], .seqs [.lit ['e', 'm', ' '], .number, .lit [' ', 'd', 'i', 'a', 's']], .seqs [.lit ['e', 'm', ' '], .number, .lit [' ', 'h', 'o', 'r', 'a']], .seqs [.lit ['e', 'm', ' '], .number, .lit [' ', 'm', 'i', 'n', 's']], .seqs [.lit ['e', 'm', ' '], .number, .lit [' ', 's', 'e', 'g', 's']], .seqs [.lit ['h', 'a', ' '], .number, .lit [' ', 'a', 'n', 'o', 's']], .seqs [.lit ['h', 'a', ' '], .number, .lit [' ', 'd', 'i', 'a', 's']], .seqs [.lit ['h', 'a', ' '], .number, .lit [' ', 'h', 'o', 'r', 'a']], .seqs [.lit ['h', 'a', ' '], .number, .lit [' ', 'm', 'i', 'n', 's']], .seqs [.lit ['e', 'm', ' '], .number, .lit [' ', 'a', 'n', 'o']], .seqs [.lit ['e', 'm', ' '], .number, .lit [' ', 'd', 'i', 'a']], .seqs [.lit ['e', 'm', ' '], .number, .lit [' ', 'm', 'e', 's']], .seqs [.lit ['e', 'm', ' '], .number, .lit [' ', 'm', 'i', 'n']], .seqs [.lit ['e', 'm', ' '], .number, .lit [' ', 's', 'e', 'g']], .seqs [.lit ['e', 'm', ' '], .number, .lit [' ', 's', 'e', 'm']], .seqs [.lit ['h', 'a', ' '], .number, .lit [' ', 'a', 'n', 'o']], .seqs [.lit ['h', 'a', ' '], .number, .lit [' ', 'd', 'i', 'a']], .seqs [.lit ['h', 'a', ' '], .number, .lit [' ', 'm', 'e', 's']], .seqs [.lit ['h', 'a', ' '], .number, .lit [' ', 'm', 'i', 'n']], .seqs [.lit ['h', 'a', ' '], .number, .lit [' ', 's', 'e', 'g']], .seqs [.lit ['h', 'a', ' '], .number, .lit [' ', 's', 'e', 'm']], .seqs [.lit ['e', 'm', ' '], .number, .lit [' ', 'h']], .seqs [.lit ['h', 'a', ' '], .number, .lit [' ', 'h']], .seqs [.lit ['h', 'a', ' '], .number, .lit [' ', 's']]]), .grp 3 (.alts [.eos, .cls true [.letter, .mark, .digit], .lit ['_']])], 3),
  rxExact := some (.seqs [.bos, .grp 1 (.alts [.seqs [.lit ['d', 'e', 'n', 't', 'r', 'o', ' ', 'd', 'e', ' '], .number, .lit [' ', 's', 'e', 'g', 'u', 'n', 'd', 'o', 's']], .seqs [.lit ['d', 'e', 'n', 't', 'r', 'o', ' ', 'd', 'e', ' '], .number, .lit [' ', 'm', 'i', 'n', 'u', 't', 'o', 's']], .seqs [.lit ['d', 'e', 'n', 't', 'r', 'o', ' ', 'd', 'e', ' '], .number, .lit [' ', 's', 'e', 'g', 'u', 'n', 'd', 'o']], .seqs [.lit ['d', 'e', 'n', 't', 'r', 'o', ' ', 'd', 'e', ' '], .number, .lit [' ', 's', 'e', 'm', 'a', 'n', 'a', 's']], .seqs [.lit ['d', 'e', 'n', 't', 'r', 'o', ' ', 'd', 'e', ' '], .number, .lit [' ', 'm', 'i', 'n', 'u', 't', 'o']], .seqs [.lit ['d', 'e', 'n', 't', 'r', 'o', ' ', 'd', 'e', ' '], .number, .lit [' ', 's', 'e', 'm', 'a', 'n', 'a']], .seqs [.lit ['d', 'e', 'n', 't', 'r', 'o', ' ', 'd', 'e', ' '], .number, .lit [' ', 'h', 'o', 'r', 'a', 's']], .seqs [.lit ['d', 'e', 'n', 't', 'r', 'o', ' ', 'd', 'e', ' '], .number, .lit [' ', 'm', 'e', 's', 'e', 's']], .seqs [.lit ['d', 'e', 'n', 't', 'r', 'o', ' ', 'd', 'e', ' '], .number, .lit [' ', 'a', 'n', 'o', 's']], .seqs [.lit ['d', 'e', 'n', 't', 'r', 'o', ' ', 'd', 'e', ' '], .number, .lit [' ', 'd', 'i', 'a', 's']], .seqs [.lit ['d', 'e', 'n', 't', 'r', 'o', ' ', 'd', 'e', ' '], .number, .lit [' ', 'h', 'o', 'r', 'a']], .seqs [.lit ['d', 'e', 'n', 't', 'r', 'o', ' ', 'd', 'e', ' '], .number, .lit [' ', 'a', 'n', 'o']], .seqs [.lit ['d', 'e', 'n', 't', 'r', 'o', ' ', 'd', 'e', ' '], .number, .lit [' ', 'd', 'i', 'a']], .seqs [.lit ['d', 'e', 'n', 't', 'r', 'o', ' ', 'd', 'e', ' '], .number, .lit [' ', 'm', 'e', 's']], .seqs [.lit ['d', 'e', 'n', 't', 'r', 'o', ' ', 'd', 'e', ' '], .number, .lit [' ', 'm', 'i', 'n']], .seqs [.lit ['d', 'e', 'n', 't', 'r', 'o', ' ', 'd', 'e', ' '], .number, .lit [' ', 's', 'e', 'm']], .seqs [.lit ['d', 'e', 'n', 't', 'r', 'o', ' ', 'd', 'e', ' '], .number, .lit [' ', 'h']], .seqs [.lit ['d', 'e', 'n', 't', 'r', 'o', ' ', 'd', 'e', ' '], .number, .lit [' ', 's']], .seqs [.lit ['e', 'm', ' '], .number, .lit [' ', 's', 'e', 'g', 'u', 'n', 'd', 'o', 's']], .seqs [.lit ['h', 'a', ' '], .number, .lit [' ', 's', 'e', 'g', 'u', 'n', 'd', 'o', 's']], .seqs [.lit ['e', 'm', ' '], .number, .lit [' ', 'm', 'i', 'n', 'u', 't', 'o', 's']], .seqs [.lit ['e', 'm', ' '], .number, .lit [' ', 's', 'e', 'g', 'u', 'n', 'd', 'o']], .seqs [.lit ['e', 'm', ' '], .number, .lit [' ', 's', 'e', 'm', 'a', 'n', 'a', 's']], .seqs [.lit ['h', 'a', ' '], .number, .lit [' ', 'm', 'i', 'n', 'u', 't', 'o', 's']], .seqs [.lit ['h', 'a', ' '], .number, .lit [' ', 's', 'e', 'g', 'u', 'n', 'd', 'o']], .seqs [.lit ['h', 'a', ' '], .number, .lit [' ', 's', 'e', 'm', 'a', 'n', 'a', 's']], .seqs [.lit ['e', 'm', ' '], .number, .lit [' ', 'm', 'i', 'n', 'u', 't', 'o']], .seqs [.lit ['e', 'm', ' '], .number, .lit [' ', 's', 'e', 'm', 'a', 'n', 'a']], .seqs [.lit ['h', 'a', ' '], .number, .lit [' ', 'm', 'i', 'n', 'u', 't', 'o']], .seqs [.lit ['h', 'a', ' '], .number, .lit [' ', 's', 'e', 'm', 'a', 'n', 'a']], .seqs [.lit ['e', 'm', ' '], .number, .lit [' ', 'h', 'o', 'r', 'a', 's']], .seqs [.lit ['e', 'm', ' '], .number, .lit [' ', 'm', 'e', 's', 'e', 's']], .seqs [.lit ['h', 'a', ' '], .number, .lit [' ', 'h', 'o', 'r', 'a', 's']], .seqs [.lit ['h', 'a', ' '], .number, .lit [' ', 'm', 'e', 's', 'e', 's']], .seqs [.lit ['e', 'm', ' '], .number, .lit [' ', 'a', 'n', 'o', 's']], .seqs [.lit ['e', 'm', ' '], .number, .lit [' ', 'd', 'i', 'a', 's']], .seqs [.lit ['e', 'm', ' '], .number, .lit [' ', 'h', 'o', 'r', 'a']], .seqs [.lit ['e', 'm', ' '], .number, .lit [' ', 'm', 'i', 'n', 's']], .seqs [.lit ['e', 'm', ' '], .number, .lit [' ', 's', 'e', 'g', 's']], .seqs [.lit ['h', 'a', ' '], .number, .lit [' ', 'a', 'n', 'o', 's']], .seqs [.lit ['h', 'a', ' '], .number, .lit [' ', 'd', 'i', 'a', 's']], .seqs [.lit ['h', 'a', ' '], .number, .lit [' ', 'h', 'o', 'r', 'a']], .seqs [.lit ['h', 'a', ' '], .number, .lit [' ', 'm', 'i', 'n', 's']], .seqs [.lit ['e', 'm', ' '], .number, .lit [' ', 'a', 'n', 'o']], .seqs [.lit ['e', 'm', ' '], .number, .lit [' ', 'd', 'i', 'a']], .seqs [.lit ['e', 'm', ' '], .number, .lit [' ', 'm', 'e', 's']], .seqs [.lit ['e', 'm', ' '], .number, .lit [' ', 'm', 'i', 'n']], .seqs [.lit ['e', 'm', ' '], .number, .lit [' ', 's', 'e', 'g']], .seqs [.lit ['e', 'm', ' '], .number, .lit [' ', 's', 'e', 'm']], .seqs [.lit ['h', 'a', ' '], .number, .lit [' ', 'a', 'n', 'o']], .seqs [.lit ['h', 'a', ' '], .number, .lit [' ', 'd', 'i', 'a']], .seqs [.lit ['h', 'a', ' '], .number, .lit [' ', 'm', 'e', 's']], .seqs [.lit ['h', 'a', ' '], .number, .lit [' ', 'm', 'i', 'n']], .seqs [.lit ['h', 'a', ' '], .number, .lit [' ', 's', 'e', 'g']], .seqs [.lit ['h', 'a', ' '], .number, .lit [' ', 's', 'e', 'm']], .seqs [.lit ['e', 'm', ' '], .number, .lit [' ', 'h']], .seqs [.lit ['h', 'a', ' '], .number, .lit [' ', 'h']], .seqs [.lit ['h', 'a', ' '], .number, .lit [' ', 's']]]), .eos]),
  knownWords :=
   [['p', 'r', 'o', 'x', 'i', 'm', 'a', ' ', 's', 'e', 'm', 'a', 'n', 'a'], ['s', 'e', 'm', 'a', 'n', 'a', ' ', 'p', 'a', 's', 's', 'a', 'd', 'a'], ['s', 'e', 'g', 'u', 'n', 'd', 'a', '-', 'f', 'e', 'i', 'r', 'a'], ['q', 'u', 'a', 'r', 't', 'a', '-', 'f', 'e', 'i', 'r', 'a'], ['q', 'u', 'i', 'n', 't', 'a', '-', 'f', 'e', 'i', 'r', 'a'], ['a', 'n', 'o', ' ', 'p', 'a', 's', 's', 'a', 'd', 'o'], ['e', 's', 't', 'a', ' ', 's', 'e', 'm', 'a', 'n', 'a'], ['e', 's', 't', 'e', ' ', 'm', 'i', 'n', 'u', 't', 'o'], ['m', 'e', 's', ' ', 'p', 'a', 's', 's', 'a', 'd', 'o'], ['p', 'r', 'o', 'x', 'i', 'm', 'o', ' ', 'a', 'n', 'o'], ['p', 'r', 'o', 'x', 'i', 'm', 'o', ' ', 'm', 'e', 's'], ['s', 'e', 'x', 't', 'a', '-', 'f', 'e', 'i', 'r', 'a'], ['t', 'e', 'r', 'c', 'a', '-', 'f', 'e', 'i', 'r', 'a'], ['a', 'n', 't', 'e', 'o', 'n', 't', 'e', 'm'], ['e', 's', 't', 'a', ' ', 'h', 'o', 'r', 'a'], ['f', 'e', 'v', 'e', 'r', 'e', 'i', 'r', 'o'], ['s', 'e', 'p', 't', 'e', 'm', 'b', 'r', 'o'], ['d', 'a', ' ', 'm', 'a', 'n', 'h', 'a'], ['d', 'a', ' ', 't', 'a', 'r', 'd', 'e'], ['d', 'e', 'z', 'e', 'm', 'b', 'r', 'o'], ['e', 's', 't', 'e', ' ', 'a', 'n', 'o'], ['e', 's', 't', 'e', ' ', 'm', 'e', 's'], ['n', 'o', 'v', 'e', 'm', 'b', 'r', 'o'], ['s', 'e', 'g', 'u', 'n', 'd', 'o', 's'], ['s', 'e', 't', 'e', 'm', 'b', 'r', 'o'], ['d', 'o', 'm', 'i', 'n', 'g', 'o'], ['j', 'a', 'n', 'e', 'i', 'r', 'o'], ['m', 'i', 'n', 'u', 't', 'o', 's'], ['o', 'u', 't', 'u', 'b', 'r', 'o'], ['s', 'e', 'g', 'u', 'n', 'd', 'a'], ['s', 'e', 'g', 'u', 'n', 'd', 'o'], ['s', 'e', 'm', 'a', 'n', 'a', 's'], ['a', 'g', 'o', 's', 't', 'o'], ['a', 'm', 'a', 'n', 'h', 'a'], ['m', 'i', 'n', 'u', 't', 'o'], ['q', 'u', 'a', 'r', 't', 'a'], ['q', 'u', 'i', 'n', 't', 'a'], ['s', 'a', 'b', 'a', 'd', 'o'], ['s', 'e', 'm', 'a', 'n', 'a'], ['a', 'b', 'r', 'i', 'l'], ['a', 'g', 'o', 'r', 'a'], ['a', 't', 'r', 'a', 's'], ['c', 'e', 'r', 'c', 'a'], ['h', 'o', 'r', 'a', 's'], ['j', 'u', 'l', 'h', 'o'], ['j', 'u', 'n', 'h', 'o'], ['m', 'a', 'n', 'h', 'a'], ['m', 'a', 'r', 'c', 'o'], ['m', 'e', 's', 'e', 's'], ['o', 'n', 't', 'e', 'm'], ['s', 'e', 'x', 't', 'a'], ['t', 'a', 'r', 'd', 'e'], ['t', 'e', 'r', 'c', 'a'], ['a', 'n', 'o', 's'], ['d', 'i', 'a', 's'], ['h', 'o', 'j', 'e'], ['h', 'o', 'r', 'a'], ['m', 'a', 'i', 'o'], ['a', 'b', 'r'], ['a', 'g', 'o'], ['a', 'n', 'o'], ['d', 'e', 'z'], ['d', 'i', 'a'], ['d', 'o', 'm'], ['f', 'e', 'v'], ['g', 'm', 't'], ['j', 'a', 'n'], ['j', 'u', 'l'], ['j', 'u', 'n'], ['m', 'a', 'i'], ['m', 'a', 'r'], ['m', 'e', 's'], ['m', 'i', 'n'], ['n', 'o', 'v'], ['o', 'u', 't'], ['q', 'u', 'a'], ['q', 'u', 'i'], ['s', 'a', 'b'], ['s', 'e', 'g'], ['s', 'e', 'm'], ['s', 'e', 't'], ['s', 'e', 'x'], ['t', 'e', 'r'], ['u', 't', 'c'], ['a', 'm'], ['a', 's'], ['d', 'e'], ['e', 'm'], ['h', 'a'], ['p', 'm'], [' '], ['\''], ['+'], [','], ['-'], ['.'], ['/'], [':'], [';'], ['@'], ['['], [']'], ['e'], ['h'], ['m'], ['s'], ['z'], ['|']] }

/-- internal/data/pt.go: `pt_TL_Locale`. -/
def pt_TLLang : LangData := { pt_TLDict with
  relativeRegexes :=
   [(.seqs [.lit ['d', 'e', 'n', 't', 'r', 'o', ' ', 'd', 'e', ' '], .grp 1 (.number), .lit [' ', 's', 'e', 'g', 'u', 'n', 'd', 'o', 's']], [.lit ['i', 'n', ' '], .ref 1, .lit [' ', 's', 'e', 'c', 'o', 'n', 'd']]),
    (.seqs [.lit ['d', 'e', 'n', 't', 'r', 'o', ' ', 'd', 'e', ' '], .grp 1 (.number), .lit [' ', 'm', 'i', 'n', 'u', 't', 'o', 's']], [.lit ['i', 'n', ' '], .ref 1, .lit [' ', 'm', 'i', 'n', 'u', 't', 'e']]),
    (.seqs [.lit ['d', 'e', 'n', 't', 'r', 'o', ' ', 'd', 'e', ' '], .grp 1 (.number), .lit [' ', 's', 'e', 'g', 'u', 'n', 'd', 'o']], [.lit ['i', 'n', ' '], .ref 1, .lit [' ', 's', 'e', 'c', 'o', 'n', 'd']]),
    (.seqs [.lit ['d', 'e', 'n', 't', 'r', 'o', ' ', 'd', 'e', ' '], .grp 1 (.number), .lit [' ', 's', 'e', 'm', 'a', 'n', 'a', 's']], [.lit ['i', 'n', ' '], .ref 1, .lit [' ', 'w', 'e', 'e', 'k']]),
    (.seqs [.lit ['d', 'e', 'n', 't', 'r', 'o', ' ', 'd', 'e', ' '], .grp 1 (.number), .lit [' ', 'm', 'i', 'n', 'u', 't', 'o']], [.lit ['i', 'n', ' '], .ref 1, .lit [' ', 'm', 'i', 'n', 'u', 't', 'e']]),
    (.seqs [.lit ['d', 'e', 'n', 't', 'r', 'o', ' ', 'd', 'e', ' '], .grp 1 (.number), .lit [' ', 's', 'e', 'm', 'a', 'n', 'a']], [.lit ['i', 'n', ' '], .ref 1, .lit [' ', 'w', 'e', 'e', 'k']]),
    (.seqs [.lit ['d', 'e', 'n', 't', 'r', 'o', ' ', 'd', 'e', ' '], .grp 1 (.number), .lit [' ', 'h', 'o', 'r', 'a', 's']], [.lit ['i', 'n', ' '], .ref 1, .lit [' ', 'h', 'o', 'u', 'r']]),
    (.seqs [.lit ['d', 'e', 'n', 't', 'r', 'o', ' ', 'd', 'e', ' '], .grp 1 (.number), .lit [' ', 'm', 'e', 's', 'e', 's']], [.lit ['i', 'n', ' '], .ref 1, .lit [' ', 'm', 'o', 'n', 't', 'h']]),
    (.seqs [.lit ['d', 'e', 'n', 't', 'r', 'o', ' ', 'd', 'e', ' '], .grp 1 (.number), .lit [' ', 'a', 'n', 'o', 's']], [.lit ['i', 'n', ' '], .ref 1, .lit [' ', 'y', 'e', 'a', 'r']]),
    (.seqs [.lit ['d', 'e', 'n', 't', 'r', 'o', ' ', 'd', 'e', ' '], .grp 1 (.number), .lit [' ', 'd', 'i', 'a', 's']], [.lit ['i', 'n', ' '], .ref 1, .lit [' ', 'd', 'a', 'y']]),
    (.seqs [.lit ['d', 'e', 'n', 't', 'r', 'o', ' ', 'd', 'e', ' '], .grp 1 (.number), .lit [' ', 'h', 'o', 'r', 'a']], [.lit ['i', 'n', ' '], .ref 1, .lit [' ', 'h', 'o', 'u', 'r']]),
    (.seqs [.lit ['d', 'e', 'n', 't', 'r', 'o', ' ', 'd', 'e', ' '], .grp 1 (.number), .lit [' ', 'a', 'n', 'o']], [.lit ['i', 'n', ' '], .ref 1, .lit [' ', 'y', 'e', 'a', 'r']]),
    (.seqs [.lit ['d', 'e', 'n', 't', 'r', 'o', ' ', 'd', 'e', ' '], .grp 1 (.number), .lit [' ', 'd', 'i', 'a']], [.lit ['i', 'n', ' '], .ref 1, .lit [' ', 'd', 'a', 'y']]),
    (.seqs [.lit ['d', 'e', 'n', 't', 'r', 'o', ' ', 'd', 'e', ' '], .grp 1 (.number), .lit [' ', 'm', 'e', 's']], [.lit ['i', 'n', ' '], .ref 1, .lit [' ', 'm', 'o', 'n', 't', 'h']]),
    (.seqs [.lit ['d', 'e', 'n', 't', 'r', 'o', ' ', 'd', 'e', ' '], .grp 1 (.number), .lit [' ', 'm', 'i', 'n']], [.lit ['i', 'n', ' '], .ref 1, .lit [' ', 'm', 'i', 'n', 'u', 't', 'e']]),
    (.seqs [.lit ['d', 'e', 'n', 't', 'r', 'o', ' ', 'd', 'e', ' '], .grp 1 (.number), .lit [' ', 's', 'e', 'm']], [.lit ['i', 'n', ' '], .ref 1, .lit [' ', 'w', 'e', 'e', 'k']]),
    (.seqs [.lit ['d', 'e', 'n', 't', 'r', 'o', ' ', 'd', 'e', ' '], .grp 1 (.number), .lit [' ', 'h']], [.lit ['i', 'n', ' '], .ref 1, .lit [' ', 'h', 'o', 'u', 'r']]),
    (.seqs [.lit ['d', 'e', 'n', 't', 'r', 'o', ' ', 'd', 'e', ' '], .grp 1 (.number), .lit [' ', 's']], [.lit ['i', 'n', ' '], .ref 1, .lit [' ', 's', 'e', 'c', 'o', 'n', 'd']]),
    (.seqs [.lit ['h', 'a', ' '], .grp 1 (.number), .lit [' ', 's']], [.ref 1, .lit [' ', 's', 'e', 'c', 'o', 'n', 'd', ' ', 'a', 'g', 'o']])],
  rxCombined := some (.seqs [.grp 1 (.alts [.bos, .cls true [.letter, .mark, .digit], .lit ['_']]), .grp 2 (.alts [.seqs [.lit ['d', 'e', 'n', 't', 'r', 'o', ' ', 'd', 'e', ' '], .number, .lit [' ', 's', 'e', 'g', 'u', 'n', 'd', 'o', 's']], .seqs [.lit ['d', 'e', 'n', 't', 'r', 'o', ' ', 'd', 'e', ' '], .number, .lit [' ', 'm', 'i', 'n', 'u', 't', 'o', 's']], .seqs [.lit ['d', 'e', 'n', 't', 'r', 'o', ' ', 'd', 'e', ' '], .number, .lit [' ', 's', 'e', 'g', 'u', 'n', 'd', 'o']], .seqs [.lit ['d', 'e', 'n', 't', 'r', 'o', ' ', 'd', 'e', ' '], .number, .lit [' ', 's', 'e', 'm', 'a', 'n', 'a', 's']], .seqs [.lit ['d', 'e', 'n', 't', 'r', 'o', ' ', 'd', 'e', ' '], .number, .lit [' ', 'm', 'i', 'n', 'u', 't', 'o']], .seqs [.lit ['d', 'e', 'n', 't', 'r', 'o', ' ', 'd', 'e', ' '], .number, .lit [' ', 's', 'e', 'm', 'a', 'n', 'a']], .seqs [.lit ['d', 'e', 'n', 't', 'r', 'o', ' ', 'd', 'e', ' '], .number, .lit [' ', 'h', 'o', 'r', 'a', 's']], .seqs [.lit ['d', 'e', 'n', 't', 'r', 'o', ' ', 'd', 'e', ' '], .number, .lit [' ', 'm', 'e', 's', 'e', 's']], .seqs [.lit ['d', 'e', 'n', 't', 'r', 'o', ' ', 'd', 'e', ' '], .number, .lit [' ', 'a', 'n', 'o', 's']], .seqs [.lit ['d', 'e', 'n', 't', 'r', 'o', ' ', 'd', 'e', ' '], .number, .lit [' ', 'd', 'i', 'a', 's']], .seqs [.lit ['d', 'e', 'n', 't', 'r', 'o', ' ', 'd', 'e', ' '], .number, .lit [' ', 'h', 'o', 'r', 'a']], .seqs [.lit ['d', 'e', 'n', 't', 'r', 'o', ' ', 'd', 'e', ' '], .number, .lit [' ', 'a', 'n', 'o']], .seqs [.lit ['d', 'e', 'n', 't', 'r', 'o', ' ', 'd', 'e', ' '], .number, .lit [' ', 'd', 'i', 'a']], .seqs [.lit ['d', 'e', 'n', 't', 'r', 'o', ' ', 'd', 'e', ' '], .number, .lit [' ', 'm', 'e', 's']], .seqs [.lit ['d', 'e', 'n', 't', 'r', 'o', ' ', 'd', 'e', ' '], .number, .lit [' ', 'm', 'i', 'n']], .seqs [.lit ['d', 'e', 'n', 't', 'r', 'o', ' ', 'd', 'e', ' '], .number, .lit [' ', 's', 'e', 'm']], .seqs [.lit ['d', 'e', 'n', 't', 'r', 'o', ' ', 'd', 'e', ' '], .number, .lit [' ', 'h']], .seqs [.lit ['d', 'e', 'n', 't', 'r', 'o', ' ', 'd', 'e', ' '], .number, .lit [' ', 's']], .seqs [.lit ['e', 'm', ' '], .number, .lit [' ', 's', 'e', 'g', 'u', 'n', 'd', 'o', 's']], .seqs [.lit ['h', 'a', ' '], .number, .lit [' ', 's', 'e', 'g', 'u', 'n', 'd', 'o', 's']], .seqs [.lit ['e', 'm', ' '], .number, .lit [' ', 'm', 'i', 'n', 'u', 't', 'o', 's']], .seqs [.lit ['e', 'm', ' '], .number, .lit [' ', 's', 'e', 'g', 'u', 'n', 'd', 'o']], .seqs [.lit ['e', 'm', ' '], .number, .lit [' ', 's', 'e', 'm', 'a', 'n', 'a', 's']], .seqs [.lit ['h', 'a', ' '], .number, .lit [' ', 'm', 'i', 'n', 'u', 't', 'o', 's']], .seqs [.lit ['h', 'a', ' '], .number, .lit [' ', 's', 'e', 'g', 'u', 'n', 'd', 'o']], .seqs [.lit ['h', 'a', ' '], .number, .lit [' ', 's', 'e', 'm', 'a', 'n', 'a', 's']], .seqs [.lit ['e', 'm', ' '], .number, .lit [' ', 'm', 'i', 'n', 'u', 't', 'o']], .seqs [.lit ['e', 'm', ' '], .number, .lit [' ', 's', 'e', 'm', 'a', 'n', 'a']], .seqs [.lit ['h', 'a', ' '], .number, .lit [' ', 'm', 'i', 'n', 'u', 't', 'o']], .seqs [.lit ['h', 'a', ' '], .number, .lit [' ', 's', 'e', 'm', 'a', 'n', 'a']], .seqs [.lit ['e', 'm', ' '], .number, .lit [' ', 'h', 'o', 'r', 'a', 's']], .seqs [.lit ['e', 'm', ' '], .number, .lit [' ', 'm', 'e', 's', 'e', 's']], .seqs [.lit ['h', 'a', ' '], .number, .lit [' ', 'h', 'o', 'r', 'a', 's']], .seqs [.lit ['h', 'a', ' '], .number, .lit [' ', 'm', 'e', 's', 'e', 's']], .seqs [.lit ['e', 'm', ' '], .number, .lit [' ', 'a', 'n', 'o', 's']], .seqs [.lit ['e', 'm', ' '], .number, .lit [' ', 'd', 'i', 'a', 's']], .seqs [.lit ['e', 'm', ' '], .number, .lit [' ', 'h', 'o', 'r', 'a']], .seqs [.lit ['e', 'm', ' '], .number, .lit [' ', 'm', 'i', 'n', 's']], .seqs [.lit ['e', 'm', ' '], .number, .lit [' ', 's', 'e', 'g', 's']], .seqs [.lit ['h', 'a', ' '], .number, .lit [' ', 'a', 'n', 'o', 's']], .seqs [.lit ['h', 'a', ' '], .number, .lit [' ', 'd', 'i', 'a', 's']], .seqs [.lit ['h', 'a', ' '], .number, .lit [' ', 'h', 'o', 'r', 'a']], .seqs [.lit ['h', 'a', ' '], .number, .lit [' ', 'm', 'i', 'n', 's']], .seqs [.lit ['e', 'm', ' '], .number, .lit [' ', 'a', 'n', 'o']], .seqs [.lit ['e', 'm', ' '], .number, .lit [' ', 'd', 'i', 'a']], .seqs [.lit ['e', 'm', ' '], .number, .lit [' ', 'm', 'e', 's']], .seqs [.lit ['e', 'm', ' '], .number, .lit [' ', 'm', 'i', 'n']], .seqs [.lit ['e', 'm', ' '], .number, .lit [' ', 's', 'e', 'g']], .seqs [.lit ['e', 'm', ' '], .number, .lit [' ', 's', 'e', 'm']], .seqs [.lit ['h', 'a', ' '], .number, .lit [' ', 'a', 'n', 'o']], .seqs [.lit ['h', 'a', ' '], .number, .lit [' ', 'd', 'i', 'a']], .seqs [.lit ['h', 'a', ' '], .number, .lit [' ', 'm', 'e', 's']], .seqs [.lit ['h', 'a', ' '], .number, .lit [' ', 'm', 'i', 'n']], .seqs [.lit ['h', 'a', ' '], .number, .lit [' ', 's', 'e', 'g']], .seqs [.lit ['h', 'a', ' '], .number, .lit [' ', 's', 'e', 'm']], .seqs [.lit ['e', 'm', ' '], .number, .lit [' ', 'h']], .seqs [.lit ['h', 'a', ' '], .number, .lit [' ', 'h']], .seqs [.lit ['h', 'a', ' '], .number, .lit [' ', 's']]]), .grp 3 (.alts [.eos, .cls true [.letter, .mark, .digit], .lit ['_']])], 3),
  rxExact := some (.seqs [.bos, .grp 1 (.alts [.seqs [.lit ['d', 'e', 'n', 't', 'r', 'o', ' ', 'd', 'e', ' '], .number, .lit [' ', 's', 'e', 'g', 'u', 'n', 'd', 'o', 's']], .seqs [.lit ['d', 'e', 'n', 't', 'r', 'o', ' ', 'd', 'e', ' '], .number, .lit [' ', 'm', 'i', 'n', 'u', 't', 'o', 's']], .seqs [.lit ['d', 'e', 'n', 't', 'r', 'o', ' ', 'd', 'e', ' '], .number, .lit [' ', 's', 'e', 'g', 'u', 'n', 'd', 'o']], .seqs [.lit ['d', 'e', 'n', 't', 'r', 'o', ' ', 'd', 'e', ' '], .number, .lit [' ', 's', 'e', 'm', 'a', 'n', 'a', 's']], .seqs [.lit ['d', 'e', 'n', 't', 'r', 'o', ' ', 'd', 'e', ' '], .number, .lit [' ', 'm', 'i', 'n', 'u', 't', 'o']], .seqs [.lit ['d', 'e', 'n', 't', 'r', 'o', ' ', 'd', 'e', ' '], .number, .lit [' ', 's', 'e', 'm', 'a', 'n', 'a']], .seqs [.lit ['d', 'e', 'n', 't', 'r', 'o', ' ', 'd', 'e', ' '], .number, .lit [' ', 'h', 'o', 'r', 'a', 's']], .seqs [.lit ['d', 'e', 'n', 't', 'r', 'o', ' ', 'd', 'e', ' '], .number, .lit [' ', 'm', 'e', 's', 'e', 's']], .seqs [.lit ['d', 'e', 'n', 't', 'r', 'o', ' ', 'd', 'e', ' '], .number, .lit [' ', 'a', 'n', 'o', 's']], .seqs [.lit ['d', 'e', 'n', 't', 'r', 'o', ' ', 'd', 'e', ' '], .number, .lit [' ', 'd', 'i', 'a', 's']], .seqs [.lit ['d', 'e', 'n', 't', 'r', 'o', ' ', 'd', 'e', ' '], .number, .lit [' ', 'h', 'o', 'r', 'a']], .seqs [.lit ['d', 'e', 'n', 't', 'r', 'o', ' ', 'd', 'e', ' '], .number, .lit [' ', 'a', 'n', 'o']], .seqs [.lit ['d', 'e', 'n', 't', 'r', 'o', ' ', 'd', 'e', ' '], .number, .lit [' ', 'd', 'i', 'a']], .seqs [.lit ['d', 'e', 'n', 't', 'r', 'o', ' ', 'd', 'e', ' '], .number, .lit [' ', 'm', 'e', 's']], .seqs [.lit ['d', 'e', 'n', 't', 'r', 'o', ' ', 'd', 'e', ' '], .number, .lit [' ', 'm', 'i', 'n']], .seqs [.lit ['d', 'e', 'n', 't', 'r', 'o', ' ', 'd', 'e', ' '], .number, .lit [' ', 's', 'e', 'm']], .seqs [.lit ['d', 'e', 'n', 't', 'r', 'o', ' ', 'd', 'e', ' '], .number, .lit [' ', 'h']], .seqs [.lit ['d', 'e', 'n', 't', 'r', 'o', ' ', 'd', 'e', ' '], .number, .lit [' ', 's']], .seqs [.lit ['e', 'm', ' '], .number, .lit [' ', 's', 'e', 'g', 'u', 'n', 'd', 'o', 's']], .seqs [.lit ['h', 'a', ' '], .number, .lit [' ', 's', 'e', 'g', 'u', 'n', 'd', 'o', 's']], .seqs [.lit ['e', 'm', ' '], .number, .lit [' ', 'm', 'i', 'n', 'u', 't', 'o', 's']], .seqs [.lit ['e', 'm', ' '], .number, .lit [' ', 's', 'e', 'g', 'u', 'n', 'd', 'o']], .seqs [.lit ['e', 'm', ' '], .number, .lit [' ', 's', 'e', 'm', 'a', 'n', 'a', 's']], .seqs [.lit ['h', 'a', ' '], .number, .lit [' ', 'm', 'i', 'n', 'u', 't', 'o', 's']], .seqs [.lit ['h', 'a', ' '], .number, .lit [' ', 's', 'e', 'g', 'u', 'n', 'd', 'o']], .seqs [.lit ['h', 'a', ' '], .number, .lit [' ', 's', 'e', 'm', 'a', 'n', 'a', 's']], .seqs [.lit ['e', 'm', ' '], .number, .lit [' ', 'm', 'i', 'n', 'u', 't', 'o']], .seqs [.lit ['e', 'm', ' '], .number, .lit [' ', 's', 'e', 'm', 'a', 'n', 'a']], .seqs [.lit ['h', 'a', ' '], .number, .lit [' ', 'm', 'i', 'n', 'u', 't', 'o']], .seqs [.lit ['h', 'a', ' '], .number, .lit [' ', 's', 'e', 'm', 'a', 'n', 'a']], .seqs [.lit ['e', 'm', ' '], .number, .lit [' ', 'h', 'o', 'r', 'a', 's']], .seqs [.lit ['e', 'm', ' '], .number, .lit [' ', 'm', 'e', 's', 'e', 's']], .seqs [.lit ['h', 'a', ' '], .number, .lit [' ', 'h', 'o', 'r', 'a', 's']], .seqs [.lit ['h', 'a', ' '], .number, .lit [' ', 'm', 'e', 's', 'e', 's']], .seqs [.lit ['e', 'm', ' '], .number, .lit [' ', 'a', 'n', 'o', 's']], .seqs [.lit ['e', 'm', ' '], .number, .lit [' ', 'd', 'i', 'a', 's']], .seqs [.lit ['e', 'm', ' '], .number, .lit [' ', 'h', 'o', 'r', 'a']], .seqs [.lit ['e', 'm', ' '], .number, .lit [' ', 'm', 'i', 'n', 's']], .seqs [.lit ['e', 'm', ' '], .number, .lit [' ', 's', 'e', 'g', 's']], .seqs [.lit ['h', 'a', ' '], .number, .lit [' ', 'a', 'n', 'o', 's']], .seqs [.lit ['h', 'a', ' '], .number, .lit [' ', 'd', 'i', 'a', 's']], .seqs [.lit ['h', 'a', ' '], .number, .lit [' ', 'h', 'o', 'r', 'a']], .seqs [.lit ['h', 'a', ' '], .number, .lit [' ', 'm', 'i', 'n', 's']], .seqs [.lit ['e', 'm', ' '], .number, .lit [' ', 'a', 'n', 'o']], .seqs [.lit ['e', 'm', ' '], .number, .lit [' ', 'd', 'i', 'a']], .seqs [.lit ['e', 'm', ' '], .number, .lit [' ', 'm', 'e', 's']], .seqs [.lit ['e', 'm', ' '], .number, .lit [' ', 'm', 'i', 'n']], .seqs [.lit ['e', 'm', ' '], .number, .lit [' ', 's', 'e', 'g']], .seqs [.lit ['e', 'm', ' '], .number, .lit [' ', 's', 'e', 'm']], .seqs [.lit ['h', 'a', ' '], .number, .lit [' ', 'a', 'n', 'o']], .seqs [.lit ['h', 'a', ' '], .number, .lit [' ', 'd', 'i', 'a']], .seqs [.lit ['h', 'a', ' '], .number, .lit [' ', 'm', 'e', 's']], .seqs [.lit ['h', 'a', ' '], .number, .lit [' ', 'm', 'i', 'n']], .seqs [.lit ['h', 'a', ' '], .number, .lit [' ', 's', 'e', 'g']], .seqs [.lit ['h', 'a', ' '], .number, .lit [' ', 's', 'e', 'm']], .seqs [.lit ['e', 'm', ' '], .number, .lit [' ', 'h']], .seqs [.lit ['h', 'a', ' '], .number, .lit [' ', 'h']], .seqs [.lit ['h', 'a', ' '], .number, .lit [' ', 's']]]), .eos]),
  knownWords :=
   [['p', 'r', 'o', 'x', 'i', 'm', 'a', ' ', 's', 'e', 'm', 'a', 'n', 'a'], ['s', 'e', 'm', 'a', 'n', 'a', ' ', 'p', 'a', 's', 's', 'a', 'd', 'a'], ['s', 'e', 'g', 'u', 'n', 'd', 'a', '-', 'f', 'e', 'i', 'r', 'a'], ['q', 'u', 'a', 'r', 't', 'a', '-', 'f', 'e', 'i', 'r', 'a'], ['q', 'u', 'i', 'n', 't', 'a', '-', 'f', 'e', 'i', 'r', 'a'], ['a', 'n', 'o', ' ', 'p', 'a', 's', 's', 'a', 'd', 'o'], ['e', 's', 't', 'a', ' ', 's', 'e', 'm', 'a', 'n', 'a'], ['e', 's', 't', 'e', ' ', 'm', 'i', 'n', 'u', 't', 'o'], ['m', 'e', 's', ' ', 'p', 'a', 's', 's', 'a', 'd', 'o'], ['p', 'r', 'o', 'x', 'i', 'm', 'o', ' ', 'a', 'n', 'o'], ['p', 'r', 'o', 'x', 'i', 'm', 'o', ' ', 'm', 'e', 's'], ['s', 'e', 'x', 't', 'a', '-', 'f', 'e', 'i', 'r', 'a'], ['t', 'e', 'r', 'c', 'a', '-', 'f', 'e', 'i', 'r', 'a'], ['a', 'n', 't', 'e', 'o', 'n', 't', 'e', 'm'], ['e', 's', 't', 'a', ' ', 'h', 'o', 'r', 'a'], ['f', 'e', 'v', 'e', 'r', 'e', 'i', 'r', 'o'], ['s', 'e', 'p', 't', 'e', 'm', 'b', 'r', 'o'], ['d', 'a', ' ', 'm', 'a', 'n', 'h', 'a'], ['d', 'a', ' ', 't', 'a', 'r', 'd', 'e'], ['d', 'e', 'z', 'e', 'm', 'b', 'r', 'o'], ['e', 's', 't', 'e', ' ', 'a', 'n', 'o'], ['e', 's', 't', 'e', ' ', 'm', 'e', 's'], ['n', 'o', 'v', 'e', 'm', 'b', 'r', 'o'], ['s', 'e', 'g', 'u', 'n', 'd', 'o', 's'], ['s', 'e', 't', 'e', 'm', 'b', 'r', 'o'], ['d', 'o', 'm', 'i', 'n', 'g', 'o'], ['j', 'a', 'n', 'e', 'i', 'r', 'o'], ['m', 'i', 'n', 'u', 't', 'o', 's'], ['o', 'u', 't', 'u', 'b', 'r', 'o'], ['s', 'e', 'g', 'u', 'n', 'd', 'a'], ['s', 'e', 'g', 'u', 'n', 'd', 'o'], ['s', 'e', 'm', 'a', 'n', 'a', 's'], ['a', 'g', 'o', 's', 't', 'o'], ['a', 'm', 'a', 'n', 'h', 'a'], ['m', 'i', 'n', 'u', 't', 'o'], ['q', 'u', 'a', 'r', 't', 'a'], ['q', 'u', 'i', 'n', 't', 'a'], ['s', 'a', 'b', 'a', 'd', 'o'], ['s', 'e', 'm', 'a', 'n', 'a'], ['a', 'b', 'r', 'i', 'l'], ['a', 'g', 'o', 'r', 'a'], ['a', 't', 'r', 'a', 's'], ['c', 'e', 'r', 'c', 'a'], ['h', 'o', 'r', 'a', 's'], ['j', 'u', 'l', 'h', 'o'], ['j', 'u', 'n', 'h', 'o'], ['m', 'a', 'n', 'h', 'a'], ['m', 'a', 'r', 'c', 'o'], ['m', 'e', 's', 'e', 's'], ['o', 'n', 't', 'e', 'm'], ['s', 'e', 'x', 't', 'a'], ['t', 'a', 'r', 'd', 'e'], ['t', 'e', 'r', 'c', 'a'], ['a', 'n', 'o', 's'], ['d', 'i', 'a', 's'], ['h', 'o', 'j', 'e'], ['h', 'o', 'r', 'a'], ['m', 'a', 'i', 'o'], ['a', 'b', 'r'], ['a', 'g', 'o'], ['a', 'n', 'o'], ['d', 'e', 'z'], ['d', 'i', 'a'], ['d', 'o', 'm'], ['f', 'e', 'v'], ['g', 'm', 't'], ['j', 'a', 'n'], ['j', 'u', 'l'], ['j', 'u', 'n'], ['m', 'a', 'i'], ['m', 'a', 'r'], ['m', 'e', 's'], ['m', 'i', 'n'], ['n', 'o', 'v'], ['o', 'u', 't'], ['q', 'u', 'a'], ['q', 'u', 'i'], ['s', 'a', 'b'], ['s', 'e', 'g'], ['s', 'e', 'm'], ['s', 'e', 't'], ['s', 'e', 'x'], ['t', 'e', 'r'], ['u', 't', 'c'], ['a', 'm'], ['a', 's'], ['d', 'e'], ['e', 'm'], ['h', 'a'], ['p', 'm'], [' '], ['\''], ['+'], [','], ['-'], ['.'], ['/'], [':'], [';'], ['@'], ['['], [']'], ['e'], ['h'], ['m'], ['s'], ['z'], ['|']] }

/-- internal/data/qu.go: `qu_Locale`. -/
def quLang : LangData := { quDict with
  knownWords :=
   [['p', 'a', 'u', 'q', 'a', 'r', ' ', 'w', 'a', 'r', 'a', 'y'], ['q', 'h', 'a', 'p', 'a', 'q', ' ', 's', 'i', 't', 'w', 'a'], ['h', 'a', 't', 'u', 'n', ' ', 'p', 'u', 'q', 'u', 'y'], ['k', 'a', 'p', 'a', 'q', ' ', 'r', 'a', 'y', 'm', 'i'], ['q', 'u', 'l', 'l', 'a', ' ', 'p', 'u', 'q', 'u', 'y'], ['t', 'h', 'i', 's', ' ', 'm', 'i', 'n', 'u', 't', 'e'], ['a', 'n', 't', 'a', ' ', 's', 'i', 't', 'w', 'a'], ['i', 'n', 't', 'i', ' ', 'r', 'a', 'y', 'm', 'i'], ['l', 'a', 's', 't', ' ', 'm', 'o', 'n', 't', 'h'], ['n', 'e', 'x', 't', ' ', 'm', 'o', 'n', 't', 'h'], ['t', 'h', 'i', 's', ' ', 'm', 'o', 'n', 't', 'h'], ['a', 'y', 'a', 'm', 'a', 'r', 'q', '\'', 'a'], ['l', 'a', 's', 't', ' ', 'w', 'e', 'e', 'k'], ['l', 'a', 's', 't', ' ', 'y', 'e', 'a', 'r'], ['m', 'i', 'e', 'r', 'c', 'o', 'l', 'e', 's'], ['n', 'e', 'x', 't', ' ', 'w', 'e', 'e', 'k'], ['n', 'e', 'x', 't', ' ', 'y', 'e', 'a', 'r'], ['t', 'h', 'i', 's', ' ', 'h', 'o', 'u', 'r'], ['t', 'h', 'i', 's', ' ', 'w', 'e', 'e', 'k'], ['t', 'h', 'i', 's', ' ', 'y', 'e', 'a', 'r'], ['u', 'm', 'a', ' ', 'r', 'a', 'y', 'm', 'i'], ['y', 'e', 's', 't', 'e', 'r', 'd', 'a', 'y'], ['k', 'a', 'n', 't', 'a', 'r', 'a', 'y'], ['t', 'o', 'm', 'o', 'r', 'r', 'o', 'w'], ['a', 'y', 'm', 'u', 'r', 'a', 'y'], ['d', 'o', 'm', 'i', 'n', 'g', 'o'], ['v', 'i', 'e', 'r', 'n', 'e', 's'], ['a', 'y', 'r', 'i', 'w', 'a'], ['j', 'u', 'e', 'v', 'e', 's'], ['m', 'a', 'r', 't', 'e', 's'], ['m', 'i', 'n', 'u', 't', 'e'], ['s', 'a', 'b', 'a', 'd', 'o'], ['s', 'e', 'c', 'o', 'n', 'd'], ['l', 'u', 'n', 'e', 's'], ['m', 'o', 'n', 't', 'h'], ['t', 'o', 'd', 'a', 'y'], ['h', 'o', 'u', 'r'], ['w', 'e', 'e', 'k'], ['y', 'e', 'a', 'r'], ['a', 'n', 't'], ['a', 'y', 'a'], ['a', 'y', 'm'], ['a', 'y', 'r'], ['d', 'a', 'y'], ['d', 'o', 'm'], ['g', 'm', 't'], ['h', 'a', 't'], ['i', 'n', 't'], ['j', 'u', 'e'], ['k', 'a', 'n'], ['k', 'a', 'p'], ['l', 'u', 'n'], ['m', 'a', 'r'], ['m', 'i', 'e'], ['n', 'o', 'w'], ['p', 'a', 'u'], ['q', 'h', 'a'], ['q', 'u', 'l'], ['s', 'a', 'b'], ['u', 'm', 'a'], ['u', 't', 'c'], ['v', 'i', 'e'], ['a', 'm'], ['p', 'm'], [' '], ['\''], ['+'], [','], ['-'], ['.'], ['/'], [':'], [';'], ['@'], ['['], [']'], ['z'], ['|']] }

/-- internal/data/qu.go: `qu_BO_Locale`. -/
def qu_BOLang : LangData := qu_BODict

/-- internal/data/qu.go: `qu_EC_Locale`. -/
def qu_ECLang : LangData := qu_ECDict

/-- internal/data/rm.go: `rm_Locale`. -/
def rmLang : LangData := { rmDict with
  knownWords :=
   [['t', 'h', 'i', 's', ' ', 'm', 'i', 'n', 'u', 't', 'e'], ['l', 'a', 's', 't', ' ', 'm', 'o', 'n', 't', 'h'], ['n', 'e', 'x', 't', ' ', 'm', 'o', 'n', 't', 'h'], ['t', 'h', 'i', 's', ' ', 'm', 'o', 'n', 't', 'h'], ['g', 'l', 'i', 'n', 'd', 'e', 's', 'd', 'i'], ['l', 'a', 's', 't', ' ', 'w', 'e', 'e', 'k'], ['l', 'a', 's', 't', ' ', 'y', 'e', 'a', 'r'], ['n', 'e', 'x', 't', ' ', 'w', 'e', 'e', 'k'], ['n', 'e', 'x', 't', ' ', 'y', 'e', 'a', 'r'], ['s', 'e', 't', 't', 'e', 'm', 'b', 'e', 'r'], ['t', 'h', 'i', 's', ' ', 'h', 'o', 'u', 'r'], ['t', 'h', 'i', 's', ' ', 'w', 'e', 'e', 'k'], ['t', 'h', 'i', 's', ' ', 'y', 'e', 'a', 'r'], ['z', 'e', 'r', 'c', 'l', 'a', 'd', 'u', 'r'], ['d', 'e', 'c', 'e', 'm', 'b', 'e', 'r'], ['d', 'u', 'm', 'e', 'n', 'g', 'i', 'a'], ['n', 'o', 'v', 'e', 'm', 'b', 'e', 'r'], ['v', 'e', 'n', 'd', 'e', 'r', 'd', 'i'], ['f', 'a', 'n', 'a', 'd', 'u', 'r'], ['g', 'i', 'e', 'v', 'g', 'i', 'a'], ['m', 'e', 's', 'e', 'm', 'n', 'a'], ['o', 'c', 't', 'o', 'b', 'e', 'r'], ['s', 'c', 'h', 'a', 'n', 'e', 'r'], ['s', 'e', 'c', 'u', 'n', 'd', 'a'], ['a', 'v', 'r', 'i', 'g', 'l'], ['d', 'a', 'm', 'a', 'u', 'n'], ['f', 'a', 'v', 'r', 'e', 'r'], ['m', 'i', 'n', 'u', 't', 'a'], ['a', 'v', 'u', 's', 't'], ['m', 'a', 'r', 'd', 'i'], ['s', 'c', 'h', 'a', 'n'], ['s', 'o', 'n', 'd', 'a'], ['z', 'e', 'r', 'c', 'l'], ['e', 'm', 'n', 'a'], ['f', 'a', 'v', 'r'], ['m', 'a', 'i', 's'], ['m', 'a', 'r', 's'], ['m', 'a', 't', 'g'], ['s', 'e', 't', 't'], ['a', 'v', 'r'], ['d', 'e', 'c'], ['f', 'a', 'n'], ['g', 'i', 'e'], ['g', 'l', 'i'], ['g', 'm', 't'], ['i', 'e', 'r'], ['n', 'o', 'v'], ['n', 'o', 'w'], ['o', 'c', 't'], ['o', 'n', 'n'], ['t', 'a', 'g'], ['u', 'r', 'a'], ['u', 't', 'c'], ['a', 'm'], ['d', 'u'], ['m', 'a'], ['m', 'e'], ['o', 'z'], ['p', 'm'], ['s', 'o'], ['v', 'e'], [' '], ['\''], ['+'], [','], ['-'], ['.'], ['/'], [':'], [';'], ['@'], ['['], [']'], ['z'], ['|']] }

/-- internal/data/rn.go: `rn_Locale`. -/
def rnLang : LangData := { rnDict with
  knownWords :=
   [['k', 'u', ' ', 'w', 'a', ' ', 'g', 'a', 't', 'a', 'n', 'd', 'a', 't', 'u'], ['i', 'n', 'd', 'w', 'i', ',', ' ', 'i', 'y', 'i', 'n', 'g', 'a'], ['e', 'j', 'o', ' ', '(', 'h', 'a', 'h', 'e', 'z', 'e', ')'], ['e', 'j', 'o', ' ', '(', 'h', 'a', 'z', 'o', 'z', 'a', ')'], ['k', 'u', ' ', 'w', 'a', ' ', 'g', 'a', 't', 'a', 'n', 'u'], ['k', 'u', ' ', 'w', 'a', ' ', 'g', 'a', 't', 'a', 't', 'u'], ['k', 'u', ' ', 'w', 'a', ' ', 'k', 'a', 'b', 'i', 'r', 'i'], ['k', 'u', ' ', 'w', 'a', ' ', 'm', 'b', 'e', 'r', 'e'], ['t', 'h', 'i', 's', ' ', 'm', 'i', 'n', 'u', 't', 'e'], ['k', 'u', ' ', 'w', '\'', 'i', 'n', 'd', 'w', 'i'], ['k', 'u', ' ', 'w', 'a', ' ', 'k', 'a', 'n', 'e'], ['l', 'a', 's', 't', ' ', 'm', 'o', 'n', 't', 'h'], ['n', 'e', 'x', 't', ' ', 'm', 'o', 'n', 't', 'h'], ['n', 'y', 'a', 'n', 'd', 'a', 'g', 'a', 'r', 'o'], ['t', 'h', 'i', 's', ' ', 'm', 'o', 'n', 't', 'h'], ['l', 'a', 's', 't', ' ', 'w', 'e', 'e', 'k'], ['l', 'a', 's', 't', ' ', 'y', 'e', 'a', 'r'], ['n', 'd', 'a', 'm', 'u', 'k', 'i', 'z', 'a'], ['n', 'e', 'x', 't', ' ', 'w', 'e', 'e', 'k'], ['n', 'e', 'x', 't', ' ', 'y', 'e', 'a', 'r'], ['n', 't', 'w', 'a', 'r', 'a', 'n', 't', 'e'], ['t', 'h', 'i', 's', ' ', 'h', 'o', 'u', 'r'], ['t', 'h', 'i', 's', ' ', 'w', 'e', 'e', 'k'], ['t', 'h', 'i', 's', ' ', 'y', 'e', 'a', 'r'], ['g', 'i', 't', 'u', 'g', 'u', 't', 'u'], ['i', 's', 'e', 'g', 'o', 'n', 'd', 'a'], ['k', 'i', 'g', 'a', 'r', 'a', 'm', 'a'], ['m', 'u', 'k', 'a', 'k', 'a', 'r', 'o'], ['m', 'u', 'n', 'y', 'o', 'n', 'y', 'o'], ['n', 'y', 'a', 'k', 'a', 'n', 'g', 'a'], ['r', 'u', 'h', 'u', 'h', 'u', 'm', 'a'], ['u', 'y', 'u', ' ', 'm', 'u', 's', 'i'], ['r', 'u', 'h', 'e', 's', 'h', 'i'], ['u', 'm', 'u', 'n', 'o', 't', 'a'], ['r', 'u', 's', 'a', 'm', 'a'], ['u', 'k', 'w', 'e', 'z', 'i'], ['u', 'm', 'w', 'a', 'k', 'a'], ['i', 's', 'a', 'h', 'a'], ['n', 'z', 'e', 'r', 'o'], ['u', 'm', 'u', 's', 'i'], ['g', 'a', 's'], ['g', 'i', 'c'], ['g', 'm', 't'], ['g', 'n', 'd'], ['g', 'n', 'u'], ['g', 't', 'u'], ['k', 'a', 'b'], ['k', 'a', 'm'], ['k', 'a', 'n'], ['m', 'a', 't'], ['m', 'b', 'e'], ['m', 'u', 't'], ['n', 'o', 'w'], ['n', 'y', 'a'], ['n', 'z', 'e'], ['u', 'g', 'u'], ['u', 'k', 'u'], ['u', 'k', 'w'], ['u', 't', 'c'], ['w', 'e', 'r'], ['z', 'm', 'u'], ['z', 'm', 'w'], ['a', 'm'], ['c', 'u'], ['p', 'm'], [' '], ['\''], ['+'], [','], ['-'], ['.'], ['/'], [':'], [';'], ['@'], ['['], [']'], ['z'], ['|']] }

/-- internal/data/ro.go: `ro_Locale`. -/
def roLang : LangData := { roDict with
  relativeRegexes :=
   [(.seqs [.lit ['p', 'e', 's', 't', 'e', ' '], .grp 1 (.number), .lit [' ', 'd', 'e', ' ', 's', 'a', 'p', 't', 'a', 'm', 'a', 'n', 'i']], [.lit ['i', 'n', ' '], .ref 1, .lit [' ', 'w', 'e', 'e', 'k']]),
    (.seqs [.lit ['a', 'c', 'u', 'm', ' '], .grp 1 (.number), .lit [' ', 'd', 'e', ' ', 's', 'a', 'p', 't', 'a', 'm', 'a', 'n', 'i']], [.ref 1, .lit [' ', 'w', 'e', 'e', 'k', ' ', 'a', 'g', 'o']]),
    (.seqs [.lit ['p', 'e', 's', 't', 'e', ' '], .grp 1 (.number), .lit [' ', 'd', 'e', ' ', 's', 'e', 'c', 'u', 'n', 'd', 'e']], [.lit ['i', 'n', ' '], .ref 1, .lit [' ', 's', 'e', 'c', 'o', 'n', 'd']]),
    (.seqs [.lit ['a', 'c', 'u', 'm', ' '], .grp 1 (.number), .lit [' ', 'd', 'e', ' ', 's', 'e', 'c', 'u', 'n', 'd', 'e']], [.ref 1, .lit [' ', 's', 'e', 'c', 'o', 'n', 'd', ' ', 'a', 'g', 'o']]),
    (.seqs [.lit ['p', 'e', 's', 't', 'e', ' '], .grp 1 (.number), .lit [' ', 'd', 'e', ' ', 'm', 'i', 'n', 'u', 't', 'e']], [.lit ['i', 'n', ' '], .ref 1, .lit [' ', 'm', 'i', 'n', 'u', 't', 'e']]),
    (.seqs [.lit ['p', 'e', 's', 't', 'e', ' '], .grp 1 (.number), .lit [' ', 's', 'a', 'p', 't', 'a', 'm', 'a', 'n', 'a']], [.lit ['i', 'n', ' '], .ref 1, .lit [' ', 'w', 'e', 'e', 'k']]),
    (.seqs [.lit ['a', 'c', 'u', 'm', ' '], .grp 1 (.number), .lit [' ', 'd', 'e', ' ', 'm', 'i', 'n', 'u', 't', 'e']], [.ref 1, .lit [' ', 'm', 'i', 'n', 'u', 't', 'e', ' ', 'a', 'g', 'o']]),
    (.seqs [.lit ['a', 'c', 'u', 'm', ' '], .grp 1 (.number), .lit [' ', 's', 'a', 'p', 't', 'a', 'm', 'a', 'n', 'a']], [.ref 1, .lit [' ', 'w', 'e', 'e', 'k', ' ', 'a', 'g', 'o']]),
    (.seqs [.lit ['p', 'e', 's', 't', 'e', ' '], .grp 1 (.number), .lit [' ', 'd', 'e', ' ', 'l', 'u', 'n', 'i']], [.lit ['i', 'n', ' '], .ref 1, .lit [' ', 'm', 'o', 'n', 't', 'h']]),
    (.seqs [.lit ['p', 'e', 's', 't', 'e', ' '], .grp 1 (.number), .lit [' ', 'd', 'e', ' ', 'z', 'i', 'l', 'e']], [.lit ['i', 'n', ' '], .ref 1, .lit [' ', 'd', 'a', 'y']]),
    (.seqs [.lit ['p', 'e', 's', 't', 'e', ' '], .grp 1 (.number), .lit [' ', 's', 'e', 'c', 'u', 'n', 'd', 'a']], [.lit ['i', 'n', ' '], .ref 1, .lit [' ', 's', 'e', 'c', 'o', 'n', 'd']]),
    (.seqs [.lit ['a', 'c', 'u', 'm', ' '], .grp 1 (.number), .lit [' ', 'd', 'e', ' ', 'l', 'u', 'n', 'i']], [.ref 1, .lit [' ', 'm', 'o', 'n', 't', 'h', ' ', 'a', 'g', 'o']]),
    (.seqs [.lit ['a', 'c', 'u', 'm', ' '], .grp 1 (.number), .lit [' ', 'd', 'e', ' ', 'z', 'i', 'l', 'e']], [.ref 1, .lit [' ', 'd', 'a', 'y', ' ', 'a', 'g', 'o']]),
    (.seqs [.lit ['a', 'c', 'u', 'm', ' '], .grp 1 (.number), .lit [' ', 's', 'e', 'c', 'u', 'n', 'd', 'a']], [.ref 1, .lit [' ', 's', 'e', 'c', 'o', 'n', 'd', ' ', 'a', 'g', 'o']]),
    (.seqs [.lit ['p', 'e', 's', 't', 'e', ' '], .grp 1 (.number), .lit [' ', 'd', 'e', ' ', 'a', 'n', 'i']], [.lit ['i', 'n', ' '], .ref 1, .lit [' ', 'y', 'e', 'a', 'r']]),
    (.seqs [.lit ['p', 'e', 's', 't', 'e', ' '], .grp 1 (.number), .lit [' ', 'd', 'e', ' ', 'o', 'r', 'e']], [.lit ['i', 'n', ' '], .ref 1, .lit [' ', 'h', 'o', 'u', 'r']]),
    (.seqs [.lit ['a', 'c', 'u', 'm', ' '], .grp 1 (.number), .lit [' ', 'd', 'e', ' ', 'a', 'n', 'i']], [.ref 1, .lit [' ', 'y', 'e', 'a', 'r', ' ', 'a', 'g', 'o']]),
    (.seqs [.lit ['a', 'c', 'u', 'm', ' '], .grp 1 (.number), .lit [' ', 'd', 'e', ' ', 'o', 'r', 'e']], [.ref 1, .lit [' ', 'h', 'o', 'u', 'r', ' ', 'a', 'g', 'o']]),
    (.seqs [.lit ['p', 'e', 's', 't', 'e', ' '], .grp 1 (.number), .lit [' ', 'm', 'i', 'n', 'u', 't']], [.lit ['i', 'n', ' '], .ref 1, .lit [' ', 'm', 'i', 'n', 'u', 't', 'e']]),
    (.seqs [.lit ['a', 'c', 'u', 'm', ' '], .grp 1 (.number), .lit [' ', 'm', 'i', 'n', 'u', 't']], [.ref 1, .lit [' ', 'm', 'i', 'n', 'u', 't', 'e', ' ', 'a', 'g', 'o']]),
    (.seqs [.lit ['p', 'e', 's', 't', 'e', ' '], .grp 1 (.number), .lit [' ', 'l', 'u', 'n', 'a']], [.lit ['i', 'n', ' '], .ref 1, .lit [' ', 'm', 'o', 'n', 't', 'h']]),
    (.seqs [.lit ['p', 'e', 's', 't', 'e', ' '], .grp 1 (.number), .lit [' ', 'l', 'u', 'n', 'i']], [.lit ['i', 'n', ' '], .ref 1, .lit [' ', 'm', 'o', 'n', 't', 'h']]),
    (.seqs [.lit ['p', 'e', 's', 't', 'e', ' '], .grp 1 (.number), .lit [' ', 's', 'a', 'p', 't']], [.lit ['i', 'n', ' '], .ref 1, .lit [' ', 'w', 'e', 'e', 'k']]),
    (.seqs [.lit ['p', 'e', 's', 't', 'e', ' '], .grp 1 (.number), .lit [' ', 'z', 'i', 'l', 'e']], [.lit ['i', 'n', ' '], .ref 1, .lit [' ', 'd', 'a', 'y']]),
    (.seqs [.lit ['a', 'c', 'u', 'm', ' '], .grp 1 (.number), .lit [' ', 'l', 'u', 'n', 'a']], [.ref 1, .lit [' ', 'm', 'o', 'n', 't', 'h', ' ', 'a', 'g', 'o']]),
    (.seqs [.lit ['a', 'c', 'u', 'm', ' '], .grp 1 (.number), .lit [' ', 'l', 'u', 'n', 'i']], [.ref 1, .lit [' ', 'm', 'o', 'n', 't', 'h', ' ', 'a', 'g', 'o']]),
    (.seqs [.lit ['a', 'c', 'u', 'm', ' '], .grp 1 (.number), .lit [' ', 's', 'a', 'p', 't']], [.ref 1, .lit [' ', 'w', 'e', 'e', 'k', ' ', 'a', 'g', 'o']]),
    (.seqs [.lit ['a', 'c', 'u', 'm', ' '], .grp 1 (.number), .lit [' ', 'z', 'i', 'l', 'e']], [.ref 1, .lit [' ', 'd', 'a', 'y', ' ', 'a', 'g', 'o']]),
    (.seqs [.lit ['p', 'e', 's', 't', 'e', ' '], .grp 1 (.number), .lit [' ', 'a', 'n', 'i']], [.lit ['i', 'n', ' '], .ref 1, .lit [' ', 'y', 'e', 'a', 'r']]),
    (.seqs [.lit ['p', 'e', 's', 't', 'e', ' '], .grp 1 (.number), .lit [' ', 'm', 'i', 'n']], [.lit ['i', 'n', ' '], .ref 1, .lit [' ', 'm', 'i', 'n', 'u', 't', 'e']]),
    (.seqs [.lit ['p', 'e', 's', 't', 'e', ' '], .grp 1 (.number), .lit [' ', 'o', 'r', 'a']], [.lit ['i', 'n', ' '], .ref 1, .lit [' ', 'h', 'o', 'u', 'r']]),
    (.seqs [.lit ['p', 'e', 's', 't', 'e', ' '], .grp 1 (.number), .lit [' ', 's', 'e', 'c']], [.lit ['i', 'n', ' '], .ref 1, .lit [' ', 's', 'e', 'c', 'o', 'n', 'd']]),
    (.seqs [.lit ['a', 'c', 'u', 'm', ' '], .grp 1 (.number), .lit [' ', 'm', 'i', 'n']], [.ref 1, .lit [' ', 'm', 'i', 'n', 'u', 't', 'e', ' ', 'a', 'g', 'o']]),
    (.seqs [.lit ['a', 'c', 'u', 'm', ' '], .grp 1 (.number), .lit [' ', 'o', 'r', 'a']], [.ref 1, .lit [' ', 'h', 'o', 'u', 'r', ' ', 'a', 'g', 'o']]),
    (.seqs [.lit ['a', 'c', 'u', 'm', ' '], .grp 1 (.number), .lit [' ', 's', 'e', 'c']], [.ref 1, .lit [' ', 's', 'e', 'c', 'o', 'n', 'd', ' ', 'a', 'g', 'o']]),
    (.seqs [.lit ['p', 'e', 's', 't', 'e', ' '], .grp 1 (.number), .lit [' ', 'a', 'n']], [.lit ['i', 'n', ' '], .ref 1, .lit [' ', 'y', 'e', 'a', 'r']]),
    (.seqs [.lit ['p', 'e', 's', 't', 'e', ' '], .grp 1 (.number), .lit [' ', 'z', 'i']], [.lit ['i', 'n', ' '], .ref 1, .lit [' ', 'd', 'a', 'y']]),
    (.seqs [.lit ['a', 'c', 'u', 'm', ' '], .grp 1 (.number), .lit [' ', 'a', 'n']], [.ref 1, .lit [' ', 'y', 'e', 'a', 'r', ' ', 'a', 'g', 'o']]),
    (.seqs [.lit ['a', 'c', 'u', 'm', ' '], .grp 1 (.number), .lit [' ', 'z', 'i']], [.ref 1, .lit [' ', 'd', 'a', 'y', ' ', 'a', 'g', 'o']]),
    (.seqs [.lit ['p', 'e', 's', 't', 'e', ' '], .grp 1 (.number), .lit [' ', 'h']], [.lit ['i', 'n', ' '], .ref 1, .lit [' ', 'h', 'o', 'u', 'r']]),
    (.seqs [.lit ['a', 'c', 'u', 'm', ' '], .grp 1 (.number), .lit [' ', 'h']], [.ref 1, .lit [' ', 'h', 'o', 'u', 'r', ' ', 'a', 'g', 'o']])],
  rxCombined := some (.seqs [.grp 1 (.alts [.bos, .cls true [.letter, .mark, .digit], .lit ['_']]), .grp 2 (.alts [.seqs [.lit ['p', 'e', 's', 't', 'e', ' '], .number, .lit [' ', 'd', 'e', ' ', 's', 'a', 'p', 't', 'a', 'm', 'a', 'n', 'i']], .seqs [.lit ['a', 'c', 'u', 'm', ' '], .number, .lit [' ', 'd', 'e', ' ', 's', 'a', 'p', 't', 'a', 'm', 'a', 'n', 'i']], .seqs [.lit ['p', 'e', 's', 't', 'e', ' '], .number, .lit [' ', 'd', 'e', ' ', 's', 'e', 'c', 'u', 'n', 'd', 'e']], .seqs [.lit ['a', 'c', 'u', 'm', ' '], .number, .lit [' ', 'd', 'e', ' ', 's', 'e', 'c', 'u', 'n', 'd', 'e']], .seqs [.lit ['p', 'e', 's', 't', 'e', ' '], .number, .lit [' ', 'd', 'e', ' ', 'm', 'i', 'n', 'u', 't', 'e']], .seqs [.lit ['p', 'e', 's', 't', 'e', ' '], .number, .lit [' ', 's', 'a', 'p', 't', 'a', 'm', 'a', 'n', 'a']], .seqs [.lit ['a', 'c', 'u', 'm', ' '], .number, .lit [' ', 'd', 'e', ' ', 'm', 'i', 'n', 'u', 't', 'e']], .seqs [.lit ['a', 'c', 'u', 'm', ' '], .number, .lit [' ', 's', 'a', 'p', 't', 'a', 'm', 'a', 'n', 'a']], .seqs [.lit ['p', 'e', 's', 't', 'e', ' '], .number, .lit [' ', 'd', 'e', ' ', 'l', 'u', 'n', 'i']], .seqs [.lit ['p', 'e', 's', 't', 'e', ' '], .number, .lit [' ', 'd', 'e', ' ', 'z', 'i', 'l', 'e']], .seqs [.lit ['p', 'e', 's', 't', 'e', ' '], .number, .lit [' ', 's', 'e', 'c', 'u', 'n', 'd', 'a']], .seqs [.lit ['a', 'c', 'u', 'm', ' '], .number, .lit [' ', 'd', 'e', ' ', 'l', 'u', 'n', 'i']], .seqs [.lit ['a', 'c', 'u', 'm', ' '], .number, .lit [' ', 'd', 'e', ' ', 'z', 'i', 'l', 'e']], .seqs [.lit ['a', 'c', 'u', 'm', ' '], .number, .lit [' ', 's', 'e', 'c', 'u', 'n', 'd', 'a']], .seqs [.lit ['p', 'e', 's', 't', 'e', ' '], .number, .lit [' ', 'd', 'e', ' ', 'a', 'n', 'i']], .seqs [.lit ['p', 'e', 's', 't', 'e', ' '], .number, .lit [' ', 'd', 'e', ' ', 'o', 'r', 'e']], .seqs [.lit ['a', 'c', 'u', 'm', ' '], .number, .lit [' ', 'd', 'e', ' ', 'a', 'n', 'i']], .seqs [.lit ['a', 'c', 'u', 'm', ' '], .number, .lit [' ', 'd', 'e', ' ', 'o', 'r', 'e']], .seqs [.lit ['p', 'e', 's', 't', 'e', ' '], .number, .lit [' ', 'm', 'i', 'n', 'u', 't']], .seqs [.lit ['a', 'c', 'u', 'm', ' '], .number, .lit [' ', 'm', 'i', 'n', 'u', 't']], .seqs [.lit ['p', 'e', 's', 't', 'e', ' '], .number, .lit [' ', 'l', 'u', 'n', 'a']], .seqs [.lit ['p', 'e', 's', 't', 'e', ' '], .number, .lit [' ', 'l', 'u', 'n', 'i']], .seqs [.lit ['p', 'e', 's', 't', 'e', ' '], .number, .lit [' ', 's', 'a', 'p', 't']], .seqs [.lit ['p', 'e', 's', 't', 'e', ' '], .number, .lit [' ', 'z', 'i', 'l', 'e']], .seqs [.lit ['a', 'c', 'u', 'm', ' '], .number, .lit [' ', 'l', 'u', 'n', 'a']], .seqs [.lit ['a', 'c', 'u', 'm', ' '], .number, .lit [' ', 'l', 'u', 'n', 'i']], .seqs [.lit ['a', 'c', 'u', 'm', ' '], .number, .lit [' ', 's', 'a', 'p', 't']], .seqs [.lit ['a', 'c', 'u', 'm', ' '], .number, .lit [' ', 'z', 'i', 'l', 'e']], .seqs [.lit ['p', 'e', 's', 't', 'e', ' '], .number, .lit [' ', 'a', 'n', 'i']], .seqs [.lit ['p', 'e', 's', 't', 'e', ' '], .number, .lit [' ', 'm', 'i', 'n']], .seqs [.lit ['p', 'e', 's', 't', 'e', ' '], .number, .lit [' ', 'o', 'r', 'a']], .seqs [.lit ['p', 'e', 's', 't', 'e', ' '], .number, .lit [' ', 's', 'e', 'c']], .seqs [.lit ['a', 'c', 'u', 'm', ' '], .number, .lit [' ', 'm', 'i', 'n']], .seqs [.lit ['a', 'c', 'u', 'm', ' '], .number, .lit [' ', 'o', 'r', 'a']], .seqs [.lit ['a', 'c', 'u', 'm', ' '], .number, .lit [' ', 's', 'e', 'c']], .seqs [.lit ['p', 'e', 's', 't', 'e', ' '], .number, .lit [' ', 'a', 'n']], .seqs [.lit ['p', 'e', 's', 't', 'e', ' '], .number, .lit [' ', 'z', 'i']], .seqs [.lit ['a', 'c', 'u', 'm', ' '], .number, .lit [' ', 'a', 'n']], .seqs [.lit ['a', 'c', 'u', 'm', ' '], .number, .lit [' ', 'z', 'i']], .seqs [.lit ['p', 'e', 's', 't', 'e', ' '], .number, .lit [' ', 'h']], .seqs [.lit ['a', 'c', 'u', 'm', ' '], .number, .lit [' ', 'h']]]), .grp 3 (.alts [.eos, .cls true [.letter, .mark, .digit], .lit ['_']])], 3),
  rxExact := some (.seqs [.bos, .grp 1 (.alts [.seqs [.lit ['p', 'e', 's', 't', 'e', ' '], .number, .lit [' ', 'd', 'e', ' ', 's', 'a', 'p', 't', 'a', 'm', 'a', 'n', 'i']], .seqs [.lit ['a', 'c', 'u', 'm', ' '], .number, .lit [' ', 'd', 'e', ' ', 's', 'a', 'p', 't', 'a', 'm', 'a', 'n', 'i']], .seqs [.lit ['p', 'e', 's', 't', 'e', ' '], .number, .lit [' ', 'd', 'e', ' ', 's', 'e', 'c', 'u', 'n', 'd', 'e']], .seqs [.lit ['a', 'c', 'u', 'm', ' '], .number, .lit [' ', 'd', 'e', ' ', 's', 'e', 'c', 'u', 'n', 'd', 'e']], .seqs [.lit ['p', 'e', 's', 't', 'e', ' '], .number, .lit [' ', 'd', 'e', ' ', 'm', 'i', 'n', 'u', 't', 'e']], .seqs [.lit ['p', 'e', 's', 't', 'e', ' '], .number, .lit [' ', 's', 'a', 'p', 't', 'a', 'm', 'a', 'n', 'a']], .seqs [.lit ['a', 'c', 'u', 'm', ' '], .number, .lit [' ', 'd', 'e', ' ', 'm', 'i', 'n', 'u', 't', 'e']], .seqs [.lit ['a', 'c', 'u', 'm', ' '], .number, .lit [' ', 's', 'a', 'p', 't', 'a', 'm', 'a', 'n', 'a']], .seqs [.lit ['p', 'e', 's', 't', 'e', ' '], .number, .lit [' ', 'd', 'e', ' ', 'l', 'u', 'n', 'i']], .seqs [.lit ['p', 'e', 's', 't', 'e', ' '], .number, .lit [' ', 'd', 'e', ' ', 'z', 'i', 'l', 'e']], .seqs [.lit ['p', 'e', 's', 't', 'e', ' '], .number, .lit [' ', 's', 'e', 'c', 'u', 'n', 'd', 'a']], .seqs [.lit ['a', 'c', 'u', 'm', ' '], .number, .lit [' ', 'd', 'e', ' ', 'l', 'u', 'n', 'i']], .seqs [.lit ['a', 'c', 'u', 'm', ' '], .number, .lit [' ', 'd', 'e', ' ', 'z', 'i', 'l', 'e']], .seqs [.lit ['a', 'c', 'u', 'm', ' '], .number, .lit [' ', 's', 'e', 'c', 'u', 'n', 'd', 'a']], .seqs [.lit ['p', 'e', 's', 't', 'e', ' '], .number, .lit [' ', 'd', 'e', ' ', 'a', 'n', 'i']], .seqs [.lit ['p', 'e', 's', 't', 'e', ' '], .number, .lit [' ', 'd', 'e', ' ', 'o', 'r', 'e']], .seqs [.lit ['a', 'c', 'u', 'm', ' '], .number, .lit [' ', 'd', 'e', ' ', 'a', 'n', 'i']], .seqs [.lit ['a', 'c', 'u', 'm', ' '], .number, .lit [' ', 'd', 'e', ' ', 'o', 'r', 'e']], .seqs [.lit ['p', 'e', 's', 't', 'e', ' '], .number, .lit [' ', 'm', 'i', 'n', 'u', 't']], .seqs [.lit ['a', 'c', 'u', 'm', ' '], .number, .lit [' ', 'm', 'i', 'n', 'u', 't']], .seqs [.lit ['p', 'e', 's', 't', 'e', ' '], .number, .lit [' ', 'l', 'u', 'n', 'a']], .seqs [.lit ['p', 'e', 's', 't', 'e', ' '], .number, .lit [' ', 'l', 'u', 'n', 'i']], .seqs [.lit ['p', 'e', 's', 't', 'e', ' '], .number, .lit [' ', 's', 'a', 'p', 't']], .seqs [.lit ['p', 'e', 's', 't', 'e', ' '], .number, .lit [' ', 'z', 'i', 'l', 'e']], .seqs [.lit ['a', 'c', 'u', 'm', ' '], .number, .lit [' ', 'l', 'u', 'n', 'a']], .seqs [.lit ['a', 'c', 'u', 'm', ' '], .number, .lit [' ', 'l', 'u', 'n', 'i']], .seqs [.lit ['a', 'c', 'u', 'm', ' '], .number, .lit [' ', 's', 'a', 'p', 't']], .seqs [.lit ['a', 'c', 'u', 'm', ' '], .number, .lit [' ', 'z', 'i', 'l', 'e']], .seqs [.lit ['p', 'e', 's', 't', 'e', ' '], .number, .lit [' ', 'a', 'n', 'i']], .seqs [.lit ['p', 'e', 's', 't', 'e', ' '], .number, .lit [' ', 'm', 'i', 'n']], .seqs [.lit ['p', 'e', 's', 't', 'e', ' '], .number, .lit [' ', 'o', 'r', 'a']], .seqs [.lit ['p', 'e', 's', 't', 'e', ' '], .number, .lit [' ', 's', 'e', 'c']], .seqs [.lit ['a', 'c', 'u', 'm', ' '], .number, .lit [' ', 'm', 'i', 'n']], .seqs [.lit ['a', 'c', 'u', 'm', ' '], .number, .lit [' ', 'o', 'r', 'a']], .seqs [.lit ['a', 'c', 'u', 'm', ' '], .number, .lit [' ', 's', 'e', 'c']], .seqs [.lit ['p', 'e', 's', 't', 'e', ' '], .number, .lit [' ', 'a', 'n']], .seqs [.lit ['p', 'e', 's', 't', 'e', ' '], .number, .lit [' ', 'z', 'i']], .seqs [.lit ['a', 'c', 'u', 'm', ' '], .number, .lit [' ', 'a', 'n']], .seqs [.lit ['a', 'c', 'u', 'm', ' '], .number, .lit [' ', 'z', 'i']], .seqs [.lit ['p', 'e', 's', 't', 'e', ' '], .number, .lit [' ', 'h']], .seqs [.lit ['a', 'c', 'u', 'm', ' '], .number, .lit [' ', 'h']]]), .eos]),
  knownWords :=
   [['s', 'a', 'p', 't', 'a', 'm', 'a', 'n', 'a', ' ', 'v', 'i', 'i', 't', 'o', 'a', 'r', 'e'], ['s', 'a', 'p', 't', 'a', 'm', 'a', 'n', 'a', ' ', 'a', 'c', 'e', 'a', 's', 't', 'a'], ['s', 'a', 'p', 't', 'a', 'm', 'a', 'n', 'a', ' ', 't', 'r', 'e', 'c', 'u', 't', 'a'], ['m', 'i', 'n', 'u', 't', 'u', 'l', ' ', 'a', 'c', 'e', 's', 't', 'a'], ['l', 'u', 'n', 'a', ' ', 'v', 'i', 'i', 't', 'o', 'a', 'r', 'e'], ['l', 'u', 'n', 'a', ' ', 'a', 'c', 'e', 'a', 's', 't', 'a'], ['l', 'u', 'n', 'a', ' ', 't', 'r', 'e', 'c', 'u', 't', 'a'], ['a', 'n', 'u', 'l', ' ', 'a', 'c', 'e', 's', 't', 'a'], ['a', 'n', 'u', 'l', ' ', 't', 'r', 'e', 'c', 'u', 't'], ['a', 'n', 'u', 'l', ' ', 'v', 'i', 'i', 't', 'o', 'r'], ['o', 'r', 'a', ' ', 'a', 'c', 'e', 'a', 's', 't', 'a'], ['s', 'e', 'p', 't', 'e', 'm', 'b', 'r', 'i', 'e'], ['d', 'e', 'c', 'e', 'm', 'b', 'r', 'i', 'e'], ['f', 'e', 'b', 'r', 'u', 'a', 'r', 'i', 'e'], ['n', 'o', 'i', 'e', 'm', 'b', 'r', 'i', 'e'], ['o', 'c', 't', 'o', 'm', 'b', 'r', 'i', 'e'], ['s', 'a', 'p', 't', 'a', 'm', 'a', 'n', 'a'], ['s', 'a', 'p', 't', 'a', 'm', 'a', 'n', 'i'], ['d', 'u', 'm', 'i', 'n', 'i', 'c', 'a'], ['i', 'a', 'n', 'u', 'a', 'r', 'i', 'e'], ['m', 'i', 'e', 'r', 'c', 'u', 'r', 'i'], ['a', 'p', 'r', 'i', 'l', 'i', 'e'], ['i', 'n', ' ', 'u', 'r', 'm', 'a'], ['s', 'a', 'm', 'b', 'a', 't', 'a'], ['s', 'e', 'c', 'u', 'n', 'd', 'a'], ['s', 'e', 'c', 'u', 'n', 'd', 'e'], ['a', 'u', 'g', 'u', 's', 't'], ['m', 'a', 'r', 't', 'i', 'e'], ['m', 'i', 'n', 'u', 't', 'e'], ['v', 'i', 'n', 'e', 'r', 'i'], ['i', 'u', 'l', 'i', 'e'], ['i', 'u', 'n', 'i', 'e'], ['m', 'a', 'i', 'n', 'e'], ['m', 'a', 'r', 't', 'i'], ['m', 'i', 'n', 'u', 't'], ['n', 'o', 'i', 'e', 'm'], ['a', 'c', 'u', 'm'], ['f', 'e', 'b', 'r'], ['i', 'e', 'r', 'i'], ['l', 'u', 'n', 'a'], ['l', 'u', 'n', 'i'], ['m', 'a', 'r', 't'], ['s', 'a', 'p', 't'], ['s', 'e', 'p', 't'], ['z', 'i', 'l', 'e'], ['a', 'n', 'i'], ['a', 'p', 'r'], ['a', 'u', 'g'], ['a', 'z', 'i'], ['d', 'e', 'c'], ['d', 'u', 'm'], ['f', 'e', 'b'], ['g', 'm', 't'], ['i', 'a', 'n'], ['i', 'u', 'l'], ['i', 'u', 'n'], ['j', 'o', 'i'], ['l', 'u', 'n'], ['m', 'a', 'i'], ['m', 'a', 'r'], ['m', 'i', 'e'], ['m', 'i', 'n'], ['n', 'o', 'v'], ['o', 'c', 't'], ['o', 'r', 'a'], ['o', 'r', 'e'], ['s', 'a', 'm'], ['s', 'e', 'c'], ['s', 'e', 'p'], ['u', 't', 'c'], ['v', 'i', 'n'], ['a', 'm'], ['a', 'n'], ['d', 'e'], ['i', 'n'], ['l', 'a'], ['m', 'i'], ['p', 'm'], ['z', 'i'], [' '], ['\''], ['+'], [','], ['-'], ['.'], ['/'], [':'], [';'], ['@'], ['['], [']'], ['h'], ['m'], ['s'], ['z'], ['|']] }

/-- internal/data/ro.go: `ro_MD_Locale`. -/
def ro_MDLang : LangData := ro_MDDict

/-- internal/data/rof.go: `rof_Locale`. -/
def rofLang : LangData := { rofDict with
  knownWords :=
   [['m', 'w', 'e', 'r', 'i', ' ', 'w', 'a', ' ', 'i', 'k', 'u', 'm', 'i', ' ', 'n', 'a', ' ', 'm', 'b', 'i', 'l', 'i'], ['m', 'w', 'e', 'r', 'i', ' ', 'w', 'a', ' ', 'i', 'k', 'u', 'm', 'i', ' ', 'n', 'a', ' ', 'm', 'o', 'j', 'a'], ['m', 'w', 'e', 'r', 'i', ' ', 'w', 'a', ' ', 'k', 'a', 't', 'a', 't', 'u'], ['m', 'w', 'e', 'r', 'i', ' ', 'w', 'a', ' ', 'k', 'w', 'a', 'n', 'z', 'a'], ['m', 'w', 'e', 'r', 'i', ' ', 'w', 'a', ' ', 'i', 'k', 'u', 'm', 'i'], ['m', 'w', 'e', 'r', 'i', ' ', 'w', 'a', ' ', 'k', 'a', 'a', 'n', 'a'], ['m', 'w', 'e', 'r', 'i', ' ', 'w', 'a', ' ', 'k', 'a', 'i', 'l', 'i'], ['m', 'w', 'e', 'r', 'i', ' ', 'w', 'a', ' ', 'n', 'a', 'n', 'e'], ['m', 'w', 'e', 'r', 'i', ' ', 'w', 'a', ' ', 's', 'a', 'b', 'a'], ['m', 'w', 'e', 'r', 'i', ' ', 'w', 'a', ' ', 's', 'i', 't', 'a'], ['m', 'w', 'e', 'r', 'i', ' ', 'w', 'a', ' ', 't', 'a', 'n', 'u'], ['m', 'w', 'e', 'r', 'i', ' ', 'w', 'a', ' ', 't', 'i', 's', 'a'], ['t', 'h', 'i', 's', ' ', 'm', 'i', 'n', 'u', 't', 'e'], ['l', 'a', 's', 't', ' ', 'm', 'o', 'n', 't', 'h'], ['n', 'e', 'x', 't', ' ', 'm', 'o', 'n', 't', 'h'], ['t', 'h', 'i', 's', ' ', 'm', 'o', 'n', 't', 'h'], ['i', 'j', 'u', 'm', 'a', 'm', 'o', 's', 'i'], ['i', 'j', 'u', 'm', 'a', 'p', 'i', 'l', 'i'], ['i', 'j', 'u', 'm', 'a', 't', 'a', 'n', 'o'], ['i', 'j', 'u', 'm', 'a', 't', 'a', 't', 'u'], ['l', 'a', 's', 't', ' ', 'w', 'e', 'e', 'k'], ['l', 'a', 's', 't', ' ', 'y', 'e', 'a', 'r'], ['n', 'e', 'x', 't', ' ', 'w', 'e', 'e', 'k'], ['n', 'e', 'x', 't', ' ', 'y', 'e', 'a', 'r'], ['t', 'h', 'i', 's', ' ', 'h', 'o', 'u', 'r'], ['t', 'h', 'i', 's', ' ', 'w', 'e', 'e', 'k'], ['t', 'h', 'i', 's', ' ', 'y', 'e', 'a', 'r'], ['a', 'l', 'h', 'a', 'm', 'i', 's', 'i'], ['i', 'j', 'u', 'm', 'a', 'n', 'n', 'e'], ['k', 'a', 'n', 'g', '\'', 'a', 'm', 'a'], ['k', 'i', 'n', 'g', 'o', 't', 'o'], ['s', 'e', 'k', 'u', 'n', 'd', 'e'], ['d', 'a', 'k', 'i', 'k', 'a'], ['i', 'j', 'u', 'm', 'a', 'a'], ['n', 'g', '\'', 'a', 'm', 'a'], ['i', 'w', 'i', 'k', 'i'], ['m', 'f', 'i', 'r', 'i'], ['m', 'u', 'a', 'k', 'a'], ['m', 'w', 'e', 'r', 'i'], ['h', 'i', 'y', 'o'], ['i', 'j', 't', 'n'], ['i', 's', 'a', 'a'], ['l', 'i', 'n', 'u'], ['a', 'l', 'h'], ['g', 'm', 't'], ['i', 'j', 'm'], ['i', 'j', 'n'], ['i', 'j', 'p'], ['i', 'j', 't'], ['i', 'j', 'u'], ['m', '1', '0'], ['m', '1', '1'], ['m', '1', '2'], ['n', 'o', 'w'], ['u', 't', 'c'], ['a', 'm'], ['m', '1'], ['m', '2'], ['m', '3'], ['m', '4'], ['m', '5'], ['m', '6'], ['m', '7'], ['m', '8'], ['m', '9'], ['p', 'm'], [' '], ['\''], ['+'], [','], ['-'], ['.'], ['/'], [':'], [';'], ['@'], ['['], [']'], ['z'], ['|']] }

/-- internal/data/ru.go: `ru_Locale`. -/
def ruLang : LangData := { ruDict with
  simplifications :=
   [(.seqs [.grp 1 (.alts [.bos, .noWord]), .cls false [.rng 'О' 'О', .rng 'о' 'о', .rng 'ᲂ' 'ᲂ'], .cls false [.rng 'Д' 'Д', .rng 'д' 'д', .rng 'ᲁ' 'ᲁ'], .alts [.seqs [.cls false [.rng 'Н' 'Н', .rng 'н' 'н'], .cls false [.rng 'А' 'А', .rng 'а' 'а']], .seqs [.cls false [.rng 'Н' 'Н', .rng 'н' 'н'], .cls false [.rng 'У' 'У', .rng 'у' 'у']], .seqs [.cls false [.rng 'Н' 'Н', .rng 'н' 'н'], .cls false [.rng 'И' 'И', .rng 'и' 'и']], .seqs [.cls false [.rng 'Н' 'Н', .rng 'н' 'н'], .cls false [.rng 'О' 'О', .rng 'о' 'о', .rng 'ᲂ' 'ᲂ'], .cls false [.rng 'И' 'И', .rng 'и' 'и']], .seqs [.cls false [.rng 'И' 'И', .rng 'и' 'и'], .cls false [.rng 'Н' 'Н', .rng 'н' 'н']]], .grp 2 (.alts [.eos, .noWord])], [.ref 1, .lit ['1'], .ref 2]),
    (.seqs [.grp 1 (.alts [.bos, .noWord]), .cls false [.rng 'Д' 'Д', .rng 'д' 'д', .rng 'ᲁ' 'ᲁ'], .cls false [.rng 'В' 'В', .rng 'в' 'в', .rng 'ᲀ' 'ᲀ'], .alts [.cls false [.rng 'А' 'А', .rng 'а' 'а'], .cls false [.rng 'Е' 'Е', .rng 'е' 'е'], .seqs [.cls false [.rng 'О' 'О', .rng 'о' 'о', .rng 'ᲂ' 'ᲂ'], .cls false [.rng 'Е' 'Е', .rng 'е' 'е']], .seqs [.cls false [.rng 'У' 'У', .rng 'у' 'у'], .cls false [.rng 'Х' 'Х', .rng 'х' 'х']]], .grp 2 (.alts [.eos, .noWord])], [.ref 1, .lit ['2'], .ref 2]),
    (.seqs [.grp 1 (.alts [.bos, .noWord]), .cls false [.rng 'П' 'П', .rng 'п' 'п'], .cls false [.rng 'А' 'А', .rng 'а' 'а'], .cls false [.rng 'Р' 'Р', .rng 'р' 'р'], .cls false [.rng 'А' 'А', .rng 'а' 'а', .rng 'У' 'У', .rng 'у' 'у', .rng 'Ы' 'Ы', .rng 'ы' 'ы'], .grp 2 (.alts [.eos, .noWord])], [.ref 1, .lit ['2'], .ref 2]),
    (.seqs [.grp 1 (.alts [.bos, .noWord]), .cls false [.rng 'Т' 'Т', .rng 'т' 'т', .rng 'ᲄ' 'ᲄ', .rng 'ᲅ' 'ᲅ'], .cls false [.rng 'Р' 'Р', .rng 'р' 'р'], .cls false [.rng 'И' 'И', .rng 'и' 'и'], .grp 2 (.alts [.eos, .noWord])], [.ref 1, .lit ['3'], .ref 2]),
    (.seqs [.grp 1 (.alts [.bos, .noWord]), .cls false [.rng 'Ч' 'Ч', .rng 'ч' 'ч'], .cls false [.rng 'Е' 'Е', .rng 'е' 'е'], .cls false [.rng 'Т' 'Т', .rng 'т' 'т', .rng 'ᲄ' 'ᲄ', .rng 'ᲅ' 'ᲅ'], .cls false [.rng 'Ы' 'Ы', .rng 'ы' 'ы'], .cls false [.rng 'Р' 'Р', .rng 'р' 'р'], .cls false [.rng 'Е' 'Е', .rng 'е' 'е'], .grp 2 (.alts [.eos, .noWord])], [.ref 1, .lit ['4'], .ref 2]),
    (.seqs [.grp 1 (.alts [.bos, .noWord]), .cls false [.rng 'П' 'П', .rng 'п' 'п'], .cls false [.rng 'Я' 'Я', .rng 'я' 'я'], .cls false [.rng 'Т' 'Т', .rng 'т' 'т', .rng 'ᲄ' 'ᲄ', .rng 'ᲅ' 'ᲅ'], .cls false [.rng 'Ь' 'Ь', .rng 'ь' 'ь'], .grp 2 (.alts [.eos, .noWord])], [.ref 1, .lit ['5'], .ref 2]),
    (.seqs [.grp 1 (.alts [.bos, .noWord]), .cls false [.rng 'Ш' 'Ш', .rng 'ш' 'ш'], .cls false [.rng 'Е' 'Е', .rng 'е' 'е'], .cls false [.rng 'С' 'С', .rng 'с' 'с', .rng 'ᲃ' 'ᲃ'], .cls false [.rng 'Т' 'Т', .rng 'т' 'т', .rng 'ᲄ' 'ᲄ', .rng 'ᲅ' 'ᲅ'], .cls false [.rng 'Ь' 'Ь', .rng 'ь' 'ь'], .grp 2 (.alts [.eos, .noWord])], [.ref 1, .lit ['6'], .ref 2]),
    (.seqs [.grp 1 (.alts [.bos, .noWord]), .cls false [.rng 'С' 'С', .rng 'с' 'с', .rng 'ᲃ' 'ᲃ'], .cls false [.rng 'Е' 'Е', .rng 'е' 'е'], .cls false [.rng 'М' 'М', .rng 'м' 'м'], .cls false [.rng 'Ь' 'Ь', .rng 'ь' 'ь'], .grp 2 (.alts [.eos, .noWord])], [.ref 1, .lit ['7'], .ref 2]),
    (.seqs [.grp 1 (.alts [.bos, .noWord]), .cls false [.rng 'В' 'В', .rng 'в' 'в', .rng 'ᲀ' 'ᲀ'], .cls false [.rng 'О' 'О', .rng 'о' 'о', .rng 'ᲂ' 'ᲂ'], .cls false [.rng 'С' 'С', .rng 'с' 'с', .rng 'ᲃ' 'ᲃ'], .cls false [.rng 'Е' 'Е', .rng 'е' 'е'], .cls false [.rng 'М' 'М', .rng 'м' 'м'], .cls false [.rng 'Ь' 'Ь', .rng 'ь' 'ь'], .grp 2 (.alts [.eos, .noWord])], [.ref 1, .lit ['8'], .ref 2]),
    (.seqs [.grp 1 (.alts [.bos, .noWord]), .cls false [.rng 'Д' 'Д', .rng 'д' 'д', .rng 'ᲁ' 'ᲁ'], .cls false [.rng 'Е' 'Е', .rng 'е' 'е'], .cls false [.rng 'В' 'В', .rng 'в' 'в', .rng 'ᲀ' 'ᲀ'], .cls false [.rng 'Я' 'Я', .rng 'я' 'я'], .cls false [.rng 'Т' 'Т', .rng 'т' 'т', .rng 'ᲄ' 'ᲄ', .rng 'ᲅ' 'ᲅ'], .cls false [.rng 'Ь' 'Ь', .rng 'ь' 'ь'], .grp 2 (.alts [.eos, .noWord])], [.ref 1, .lit ['9'], .ref 2]),
    (.seqs [.grp 1 (.alts [.bos, .noWord]), .cls false [.rng 'Д' 'Д', .rng 'д' 'д', .rng 'ᲁ' 'ᲁ'], .cls false [.rng 'Е' 'Е', .rng 'е' 'е'], .cls false [.rng 'С' 'С', .rng 'с' 'с', .rng 'ᲃ' 'ᲃ'], .cls false [.rng 'Я' 'Я', .rng 'я' 'я'], .cls false [.rng 'Т' 'Т', .rng 'т' 'т', .rng 'ᲄ' 'ᲄ', .rng 'ᲅ' 'ᲅ'], .cls false [.rng 'Ь' 'Ь', .rng 'ь' 'ь'], .grp 2 (.alts [.eos, .noWord])], [.ref 1, .lit ['1', '0'], .ref 2]),
    (.seqs [.grp 1 (.alts [.bos, .noWord]), .cls false [.rng 'О' 'О', .rng 'о' 'о', .rng 'ᲂ' 'ᲂ'], .cls false [.rng 'Д' 'Д', .rng 'д' 'д', .rng 'ᲁ' 'ᲁ'], .cls false [.rng 'И' 'И', .rng 'и' 'и'], .cls false [.rng 'Н' 'Н', .rng 'н' 'н'], .cls false [.rng 'Н' 'Н', .rng 'н' 'н'], .cls false [.rng 'А' 'А', .rng 'а' 'а'], .cls false [.rng 'Д' 'Д', .rng 'д' 'д', .rng 'ᲁ' 'ᲁ'], .cls false [.rng 'Ц' 'Ц', .rng 'ц' 'ц'], .cls false [.rng 'А' 'А', .rng 'а' 'а'], .cls false [.rng 'Т' 'Т', .rng 'т' 'т', .rng 'ᲄ' 'ᲄ', .rng 'ᲅ' 'ᲅ'], .cls false [.rng 'Ь' 'Ь', .rng 'ь' 'ь'], .grp 2 (.alts [.eos, .noWord])], [.ref 1, .lit ['1', '1'], .ref 2]),
    (.seqs [.grp 1 (.alts [.bos, .noWord]), .cls false [.rng 'Д' 'Д', .rng 'д' 'д', .rng 'ᲁ' 'ᲁ'], .cls false [.rng 'В' 'В', .rng 'в' 'в', .rng 'ᲀ' 'ᲀ'], .cls false [.rng 'Е' 'Е', .rng 'е' 'е'], .cls false [.rng 'Н' 'Н', .rng 'н' 'н'], .cls false [.rng 'А' 'А', .rng 'а' 'а'], .cls false [.rng 'Д' 'Д', .rng 'д' 'д', .rng 'ᲁ' 'ᲁ'], .cls false [.rng 'Ц' 'Ц', .rng 'ц' 'ц'], .cls false [.rng 'А' 'А', .rng 'а' 'а'], .cls false [.rng 'Т' 'Т', .rng 'т' 'т', .rng 'ᲄ' 'ᲄ', .rng 'ᲅ' 'ᲅ'], .cls false [.rng 'Ь' 'Ь', .rng 'ь' 'ь'], .grp 2 (.alts [.eos, .noWord])], [.ref 1, .lit ['1', '2'], .ref 2]),
    (.seqs [.grp 1 (.alts [.bos, .noWord]), .cls false [.rng 'П' 'П', .rng 'п' 'п'], .cls false [.rng 'Я' 'Я', .rng 'я' 'я'], .cls false [.rng 'Т' 'Т', .rng 'т' 'т', .rng 'ᲄ' 'ᲄ', .rng 'ᲅ' 'ᲅ'], .cls false [.rng 'Н' 'Н', .rng 'н' 'н'], .cls false [.rng 'А' 'А', .rng 'а' 'а'], .cls false [.rng 'Д' 'Д', .rng 'д' 'д', .rng 'ᲁ' 'ᲁ'], .cls false [.rng 'Ц' 'Ц', .rng 'ц' 'ц'], .cls false [.rng 'А' 'А', .rng 'а' 'а'], .cls false [.rng 'Т' 'Т', .rng 'т' 'т', .rng 'ᲄ' 'ᲄ', .rng 'ᲅ' 'ᲅ'], .cls false [.rng 'Ь' 'Ь', .rng 'ь' 'ь'], .grp 2 (.alts [.eos, .noWord])], [.ref 1, .lit ['1', '5'], .ref 2]),
    (.seqs [.grp 1 (.alts [.bos, .noWord]), .cls false [.rng 'Д' 'Д', .rng 'д' 'д', .rng 'ᲁ' 'ᲁ'], .cls false [.rng 'В' 'В', .rng 'в' 'в', .rng 'ᲀ' 'ᲀ'], .cls false [.rng 'А' 'А', .rng 'а' 'а'], .cls false [.rng 'Д' 'Д', .rng 'д' 'д', .rng 'ᲁ' 'ᲁ'], .cls false [.rng 'Ц' 'Ц', .rng 'ц' 'ц'], .cls false [.rng 'А' 'А', .rng 'а' 'а'], .cls false [.rng 'Т' 'Т', .rng 'т' 'т', .rng 'ᲄ' 'ᲄ', .rng 'ᲅ' 'ᲅ'], .cls false [.rng 'Ь' 'Ь', .rng 'ь' 'ь'], .grp 2 (.alts [.eos, .noWord])], [.ref 1, .lit ['2', '0'], .ref 2]),
    (.seqs [.grp 1 (.alts [.bos, .noWord]), .cls false [.rng 'Т' 'Т', .rng 'т' 'т', .rng 'ᲄ' 'ᲄ', .rng 'ᲅ' 'ᲅ'], .cls false [.rng 'Р' 'Р', .rng 'р' 'р'], .cls false [.rng 'И' 'И', .rng 'и' 'и'], .cls false [.rng 'Д' 'Д', .rng 'д' 'д', .rng 'ᲁ' 'ᲁ'], .cls false [.rng 'Ц' 'Ц', .rng 'ц' 'ц'], .cls false [.rng 'А' 'А', .rng 'а' 'а'], .cls false [.rng 'Т' 'Т', .rng 'т' 'т', .rng 'ᲄ' 'ᲄ', .rng 'ᲅ' 'ᲅ'], .cls false [.rng 'Ь' 'Ь', .rng 'ь' 'ь'], .grp 2 (.alts [.eos, .noWord])], [.ref 1, .lit ['3', '0'], .ref 2]),
    (.seqs [.grp 1 (.alts [.bos, .noWord]), .cls false [.rng 'С' 'С', .rng 'с' 'с', .rng 'ᲃ' 'ᲃ'], .cls false [.rng 'О' 'О', .rng 'о' 'о', .rng 'ᲂ' 'ᲂ'], .cls false [.rng 'Р' 'Р', .rng 'р' 'р'], .cls false [.rng 'О' 'О', .rng 'о' 'о', .rng 'ᲂ' 'ᲂ'], .cls false [.rng 'К' 'К', .rng 'к' 'к'], .grp 2 (.alts [.eos, .noWord])], [.ref 1, .lit ['4', '0'], .ref 2]),
    (.seqs [.grp 1 (.alts [.bos, .noWord]), .cls false [.rng 'П' 'П', .rng 'п' 'п'], .cls false [.rng 'Я' 'Я', .rng 'я' 'я'], .cls false [.rng 'Т' 'Т', .rng 'т' 'т', .rng 'ᲄ' 'ᲄ', .rng 'ᲅ' 'ᲅ'], .cls false [.rng 'Ь' 'Ь', .rng 'ь' 'ь'], .cls false [.rng 'Д' 'Д', .rng 'д' 'д', .rng 'ᲁ' 'ᲁ'], .cls false [.rng 'Е' 'Е', .rng 'е' 'е'], .cls false [.rng 'С' 'С', .rng 'с' 'с', .rng 'ᲃ' 'ᲃ'], .cls false [.rng 'Я' 'Я', .rng 'я' 'я'], .cls false [.rng 'Т' 'Т', .rng 'т' 'т', .rng 'ᲄ' 'ᲄ', .rng 'ᲅ' 'ᲅ'], .grp 2 (.alts [.eos, .noWord])], [.ref 1, .lit ['5', '0'], .ref 2]),
    (.seqs [.grp 1 (.alts [.bos, .noWord]), .cls false [.rng 'Н' 'Н', .rng 'н' 'н'], .cls false [.rng 'Е' 'Е', .rng 'е' 'е'], .cls false [.rng 'С' 'С', .rng 'с' 'с', .rng 'ᲃ' 'ᲃ'], .cls false [.rng 'К' 'К', .rng 'к' 'к'], .cls false [.rng 'О' 'О', .rng 'о' 'о', .rng 'ᲂ' 'ᲂ'], .cls false [.rng 'Л' 'Л', .rng 'л' 'л'], .cls false [.rng 'Ь' 'Ь', .rng 'ь' 'ь'], .cls false [.rng 'К' 'К', .rng 'к' 'к'], .cls false [.rng 'О' 'О', .rng 'о' 'о', .rng 'ᲂ' 'ᲂ'], .lit [' '], .cls false [.rng 'С' 'С', .rng 'с' 'с', .rng 'ᲃ' 'ᲃ'], .cls false [.rng 'Е' 'Е', .rng 'е' 'е'], .cls false [.rng 'К' 'К', .rng 'к' 'к'], .cls false [.rng 'У' 'У', .rng 'у' 'у'], .cls false [.rng 'Н' 'Н', .rng 'н' 'н'], .cls false [.rng 'Д' 'Д', .rng 'д' 'д', .rng 'ᲁ' 'ᲁ'], .grp 2 (.alts [.eos, .noWord])], [.ref 1, .lit ['4', '4', ' ', 'с', 'е', 'к', 'у', 'н', 'д', 'ы'], .ref 2]),
    (.seqs [.grp 1 (.alts [.bos, .noWord]), .cls false [.rng 'П' 'П', .rng 'п' 'п'], .cls false [.rng 'О' 'О', .rng 'о' 'о', .rng 'ᲂ' 'ᲂ'], .cls false [.rng 'Л' 'Л', .rng 'л' 'л'], .cls false [.rng 'Ч' 'Ч', .rng 'ч' 'ч'], .cls false [.rng 'А' 'А', .rng 'а' 'а'], .cls false [.rng 'С' 'С', .rng 'с' 'с', .rng 'ᲃ' 'ᲃ'], .cls false [.rng 'А' 'А', .rng 'а' 'а'], .grp 2 (.alts [.eos, .noWord])], [.ref 1, .lit ['3', '0', ' ', 'м', 'и', 'н', 'у', 'т'], .ref 2]),
    (.seqs [.grp 1 (.alts [.bos, .noWord]), .cls false [.rng 'П' 'П', .rng 'п' 'п'], .cls false [.rng 'О' 'О', .rng 'о' 'о', .rng 'ᲂ' 'ᲂ'], .cls false [.rng 'Л' 'Л', .rng 'л' 'л'], .cls false [.rng 'Г' 'Г', .rng 'г' 'г'], .cls false [.rng 'О' 'О', .rng 'о' 'о', .rng 'ᲂ' 'ᲂ'], .cls false [.rng 'Д' 'Д', .rng 'д' 'д', .rng 'ᲁ' 'ᲁ'], .cls false [.rng 'А' 'А', .rng 'а' 'а'], .grp 2 (.alts [.eos, .noWord])], [.ref 1, .lit ['6', ' ', 'м', 'е', 'с', 'я', 'ц', 'е', 'в'], .ref 2]),
    (.seqs [.grp 1 (.alts [.bos, .noWord]), .cls false [.rng 'П' 'П', .rng 'п' 'п'], .cls false [.rng 'О' 'О', .rng 'о' 'о', .rng 'ᲂ' 'ᲂ'], .cls false [.rng 'Л' 'Л', .rng 'л' 'л'], .cls false [.rng 'Т' 'Т', .rng 'т' 'т', .rng 'ᲄ' 'ᲄ', .rng 'ᲅ' 'ᲅ'], .cls false [.rng 'О' 'О', .rng 'о' 'о', .rng 'ᲂ' 'ᲂ'], .cls false [.rng 'Р' 'Р', .rng 'р' 'р'], .cls false [.rng 'А' 'А', .rng 'а' 'а'], .lit [' '], .cls false [.rng 'Ч' 'Ч', .rng 'ч' 'ч'], .cls false [.rng 'А' 'А', .rng 'а' 'а'], .cls false [.rng 'С' 'С', .rng 'с' 'с', .rng 'ᲃ' 'ᲃ'], .cls false [.rng 'А' 'А', .rng 'а' 'а'], .grp 2 (.alts [.eos, .noWord])], [.ref 1, .lit ['9', '0', ' ', 'м', 'и', 'н', 'у', 'т'], .ref 2]),
    (.seqs [.grp 1 (.alts [.bos, .noWord]), .cls false [.rng 'П' 'П', .rng 'п' 'п'], .cls false [.rng 'О' 'О', .rng 'о' 'о', .rng 'ᲂ' 'ᲂ'], .cls false [.rng 'Л' 'Л', .rng 'л' 'л'], .cls false [.rng 'Т' 'Т', .rng 'т' 'т', .rng 'ᲄ' 'ᲄ', .rng 'ᲅ' 'ᲅ'], .cls false [.rng 'О' 'О', .rng 'о' 'о', .rng 'ᲂ' 'ᲂ'], .cls false [.rng 'Р' 'Р', .rng 'р' 'р'], .cls false [.rng 'А' 'А', .rng 'а' 'а'], .lit [' '], .cls false [.rng 'Г' 'Г', .rng 'г' 'г'], .cls false [.rng 'О' 'О', .rng 'о' 'о', .rng 'ᲂ' 'ᲂ'], .cls false [.rng 'Д' 'Д', .rng 'д' 'д', .rng 'ᲁ' 'ᲁ'], .cls false [.rng 'А' 'А', .rng 'а' 'а'], .grp 2 (.alts [.eos, .noWord])], [.ref 1, .lit ['1', '8', ' ', 'м', 'е', 'с', 'я', 'ц', 'е', 'в'], .ref 2]),
    (.seqs [.grp 1 (.alts [.bos, .noWord]), .grp 2 (.seqs [.alts [.seqs [.cls false [.rng 'Ч' 'Ч', .rng 'ч' 'ч'], .cls false [.rng 'Е' 'Е', .rng 'е' 'е'], .cls false [.rng 'Р' 'Р', .rng 'р' 'р'], .cls false [.rng 'Е' 'Е', .rng 'е' 'е'], .cls false [.rng 'З' 'З', .rng 'з' 'з']], .seqs [.cls false [.rng 'С' 'С', .rng 'с' 'с', .rng 'ᲃ' 'ᲃ'], .cls false [.rng 'П' 'П', .rng 'п' 'п'], .cls false [.rng 'У' 'У', .rng 'у' 'у'], .cls false [.rng 'С' 'С', .rng 'с' 'с', .rng 'ᲃ' 'ᲃ'], .cls false [.rng 'Т' 'Т', .rng 'т' 'т', .rng 'ᲄ' 'ᲄ', .rng 'ᲅ' 'ᲅ'], .cls false [.rng 'Я' 'Я', .rng 'я' 'я']], .seqs [.cls false [.rng 'В' 'В', .rng 'в' 'в', .rng 'ᲀ' 'ᲀ'], .lit [' '], .cls false [.rng 'Т' 'Т', .rng 'т' 'т', .rng 'ᲄ' 'ᲄ', .rng 'ᲅ' 'ᲅ'], .cls false [.rng 'Е' 'Е', .rng 'е' 'е'], .cls false [.rng 'Ч' 'Ч', .rng 'ч' 'ч'], .cls false [.rng 'Е' 'Е', .rng 'е' 'е'], .cls false [.rng 'Н' 'Н', .rng 'н' 'н'], .cls false [.rng 'И' 'И', .rng 'и' 'и'], .cls false [.rng 'Е' 'Е', .rng 'е' 'е']]], .plus (.cls false [.space])]), .cls false [.rng 'С' 'С', .rng 'с' 'с', .rng 'ᲃ' 'ᲃ'], .cls false [.rng 'Е' 'Е', .rng 'е' 'е'], .cls false [.rng 'К' 'К', .rng 'к' 'к'], .cls false [.rng 'У' 'У', .rng 'у' 'у'], .cls false [.rng 'Н' 'Н', .rng 'н' 'н'], .cls false [.rng 'Д' 'Д', .rng 'д' 'д', .rng 'ᲁ' 'ᲁ'], .cls false [.rng 'У' 'У', .rng 'у' 'у', .rng 'Ы' 'Ы', .rng 'ы' 'ы'], .grp 3 (.alts [.eos, .noWord])], [.ref 1, .ref 2, .lit ['1', ' ', 'с', 'е', 'к', 'у', 'н', 'д', 'у'], .ref 3]),
    (.seqs [.grp 1 (.alts [.bos, .noWord]), .grp 2 (.seqs [.alts [.seqs [.cls false [.rng 'Ч' 'Ч', .rng 'ч' 'ч'], .cls false [.rng 'Е' 'Е', .rng 'е' 'е'], .cls false [.rng 'Р' 'Р', .rng 'р' 'р'], .cls false [.rng 'Е' 'Е', .rng 'е' 'е'], .cls false [.rng 'З' 'З', .rng 'з' 'з']], .seqs [.cls false [.rng 'С' 'С', .rng 'с' 'с', .rng 'ᲃ' 'ᲃ'], .cls false [.rng 'П' 'П', .rng 'п' 'п'], .cls false [.rng 'У' 'У', .rng 'у' 'у'], .cls false [.rng 'С' 'С', .rng 'с' 'с', .rng 'ᲃ' 'ᲃ'], .cls false [.rng 'Т' 'Т', .rng 'т' 'т', .rng 'ᲄ' 'ᲄ', .rng 'ᲅ' 'ᲅ'], .cls false [.rng 'Я' 'Я', .rng 'я' 'я']], .seqs [.cls false [.rng 'В' 'В', .rng 'в' 'в', .rng 'ᲀ' 'ᲀ'], .lit [' '], .cls false [.rng 'Т' 'Т', .rng 'т' 'т', .rng 'ᲄ' 'ᲄ', .rng 'ᲅ' 'ᲅ'], .cls false [.rng 'Е' 'Е', .rng 'е' 'е'], .cls false [.rng 'Ч' 'Ч', .rng 'ч' 'ч'], .cls false [.rng 'Е' 'Е', .rng 'е' 'е'], .cls false [.rng 'Н' 'Н', .rng 'н' 'н'], .cls false [.rng 'И' 'И', .rng 'и' 'и'], .cls false [.rng 'Е' 'Е', .rng 'е' 'е']]], .plus (.cls false [.space])]), .cls false [.rng 'М' 'М', .rng 'м' 'м'], .cls false [.rng 'И' 'И', .rng 'и' 'и'], .cls false [.rng 'Н' 'Н', .rng 'н' 'н'], .cls false [.rng 'У' 'У', .rng 'у' 'у'], .cls false [.rng 'Т' 'Т', .rng 'т' 'т', .rng 'ᲄ' 'ᲄ', .rng 'ᲅ' 'ᲅ'], .cls false [.rng 'У' 'У', .rng 'у' 'у', .rng 'Ы' 'Ы', .rng 'ы' 'ы'], .grp 3 (.alts [.eos, .noWord])], [.ref 1, .ref 2, .lit ['1', ' ', 'м', 'и', 'н', 'у', 'т', 'у'], .ref 3]),
    (.seqs [.grp 1 (.alts [.bos, .noWord]), .grp 2 (.seqs [.alts [.seqs [.cls false [.rng 'Ч' 'Ч', .rng 'ч' 'ч'], .cls false [.rng 'Е' 'Е', .rng 'е' 'е'], .cls false [.rng 'Р' 'Р', .rng 'р' 'р'], .cls false [.rng 'Е' 'Е', .rng 'е' 'е'], .cls false [.rng 'З' 'З', .rng 'з' 'з']], .seqs [.cls false [.rng 'С' 'С', .rng 'с' 'с', .rng 'ᲃ' 'ᲃ'], .cls false [.rng 'П' 'П', .rng 'п' 'п'], .cls false [.rng 'У' 'У', .rng 'у' 'у'], .cls false [.rng 'С' 'С', .rng 'с' 'с', .rng 'ᲃ' 'ᲃ'], .cls false [.rng 'Т' 'Т', .rng 'т' 'т', .rng 'ᲄ' 'ᲄ', .rng 'ᲅ' 'ᲅ'], .cls false [.rng 'Я' 'Я', .rng 'я' 'я']], .seqs [.cls false [.rng 'В' 'В', .rng 'в' 'в', .rng 'ᲀ' 'ᲀ'], .lit [' '], .cls false [.rng 'Т' 'Т', .rng 'т' 'т', .rng 'ᲄ' 'ᲄ', .rng 'ᲅ' 'ᲅ'], .cls false [.rng 'Е' 'Е', .rng 'е' 'е'], .cls false [.rng 'Ч' 'Ч', .rng 'ч' 'ч'], .cls false [.rng 'Е' 'Е', .rng 'е' 'е'], .cls false [.rng 'Н' 'Н', .rng 'н' 'н'], .cls false [.rng 'И' 'И', .rng 'и' 'и'], .cls false [.rng 'Е' 'Е', .rng 'е' 'е']]], .plus (.cls false [.space])]), .cls false [.rng 'Ч' 'Ч', .rng 'ч' 'ч'], .cls false [.rng 'А' 'А', .rng 'а' 'а'], .cls false [.rng 'С' 'С', .rng 'с' 'с', .rng 'ᲃ' 'ᲃ'], .opt (.cls false [.rng 'А' 'А', .rng 'а' 'а']), .grp 3 (.alts [.eos, .noWord])], [.ref 1, .ref 2, .lit ['1', ' ', 'ч', 'а', 'с'], .ref 3]),
    (.seqs [.grp 1 (.alts [.bos, .noWord]), .grp 2 (.seqs [.alts [.seqs [.cls false [.rng 'Ч' 'Ч', .rng 'ч' 'ч'], .cls false [.rng 'Е' 'Е', .rng 'е' 'е'], .cls false [.rng 'Р' 'Р', .rng 'р' 'р'], .cls false [.rng 'Е' 'Е', .rng 'е' 'е'], .cls false [.rng 'З' 'З', .rng 'з' 'з']], .seqs [.cls false [.rng 'С' 'С', .rng 'с' 'с', .rng 'ᲃ' 'ᲃ'], .cls false [.rng 'П' 'П', .rng 'п' 'п'], .cls false [.rng 'У' 'У', .rng 'у' 'у'], .cls false [.rng 'С' 'С', .rng 'с' 'с', .rng 'ᲃ' 'ᲃ'], .cls false [.rng 'Т' 'Т', .rng 'т' 'т', .rng 'ᲄ' 'ᲄ', .rng 'ᲅ' 'ᲅ'], .cls false [.rng 'Я' 'Я', .rng 'я' 'я']], .seqs [.cls false [.rng 'В' 'В', .rng 'в' 'в', .rng 'ᲀ' 'ᲀ'], .lit [' '], .cls false [.rng 'Т' 'Т', .rng 'т' 'т', .rng 'ᲄ' 'ᲄ', .rng 'ᲅ' 'ᲅ'], .cls false [.rng 'Е' 'Е', .rng 'е' 'е'], .cls false [.rng 'Ч' 'Ч', .rng 'ч' 'ч'], .cls false [.rng 'Е' 'Е', .rng 'е' 'е'], .cls false [.rng 'Н' 'Н', .rng 'н' 'н'], .cls false [.rng 'И' 'И', .rng 'и' 'и'], .cls false [.rng 'Е' 'Е', .rng 'е' 'е']]], .plus (.cls false [.space])]), .alts [.seqs [.cls false [.rng 'Д' 'Д', .rng 'д' 'д', .rng 'ᲁ' 'ᲁ'], .cls false [.rng 'Е' 'Е', .rng 'е' 'е'], .cls false [.rng 'Н' 'Н', .rng 'н' 'н'], .cls false [.rng 'Ь' 'Ь', .rng 'ь' 'ь']], .seqs [.cls false [.rng 'Д' 'Д', .rng 'д' 'д', .rng 'ᲁ' 'ᲁ'], .cls false [.rng 'Н' 'Н', .rng 'н' 'н'], .cls false [.rng 'Я' 'Я', .rng 'я' 'я']]], .grp 3 (.alts [.eos, .noWord])], [.ref 1, .ref 2, .lit ['1', ' ', 'д', 'е', 'н', 'ь'], .ref 3]),
    (.seqs [.grp 1 (.alts [.bos, .noWord]), .grp 2 (.seqs [.alts [.seqs [.cls false [.rng 'Ч' 'Ч', .rng 'ч' 'ч'], .cls false [.rng 'Е' 'Е', .rng 'е' 'е'], .cls false [.rng 'Р' 'Р', .rng 'р' 'р'], .cls false [.rng 'Е' 'Е', .rng 'е' 'е'], .cls false [.rng 'З' 'З', .rng 'з' 'з']], .seqs [.cls false [.rng 'С' 'С', .rng 'с' 'с', .rng 'ᲃ' 'ᲃ'], .cls false [.rng 'П' 'П', .rng 'п' 'п'], .cls false [.rng 'У' 'У', .rng 'у' 'у'], .cls false [.rng 'С' 'С', .rng 'с' 'с', .rng 'ᲃ' 'ᲃ'], .cls false [.rng 'Т' 'Т', .rng 'т' 'т', .rng 'ᲄ' 'ᲄ', .rng 'ᲅ' 'ᲅ'], .cls false [.rng 'Я' 'Я', .rng 'я' 'я']], .seqs [.cls false [.rng 'В' 'В', .rng 'в' 'в', .rng 'ᲀ' 'ᲀ'], .lit [' '], .cls false [.rng 'Т' 'Т', .rng 'т' 'т', .rng 'ᲄ' 'ᲄ', .rng 'ᲅ' 'ᲅ'], .cls false [.rng 'Е' 'Е', .rng 'е' 'е'], .cls false [.rng 'Ч' 'Ч', .rng 'ч' 'ч'], .cls false [.rng 'Е' 'Е', .rng 'е' 'е'], .cls false [.rng 'Н' 'Н', .rng 'н' 'н'], .cls false [.rng 'И' 'И', .rng 'и' 'и'], .cls false [.rng 'Е' 'Е', .rng 'е' 'е']]], .plus (.cls false [.space])]), .cls false [.rng 'С' 'С', .rng 'с' 'с', .rng 'ᲃ' 'ᲃ'], .cls false [.rng 'У' 'У', .rng 'у' 'у'], .cls false [.rng 'Т' 'Т', .rng 'т' 'т', .rng 'ᲄ' 'ᲄ', .rng 'ᲅ' 'ᲅ'], .alts [.seqs [.cls false [.rng 'К' 'К', .rng 'к' 'к'], .cls false [.rng 'И' 'И', .rng 'и' 'и']], .seqs [.cls false [.rng 'О' 'О', .rng 'о' 'о', .rng 'ᲂ' 'ᲂ'], .cls false [.rng 'К' 'К', .rng 'к' 'к']]], .grp 3 (.alts [.eos, .noWord])], [.ref 1, .ref 2, .lit ['1', ' ', 'с', 'у', 'т', 'к', 'и'], .ref 3]),
    (.seqs [.grp 1 (.alts [.bos, .noWord]), .grp 2 (.seqs [.alts [.seqs [.cls false [.rng 'Ч' 'Ч', .rng 'ч' 'ч'], .cls false [.rng 'Е' 'Е', .rng 'е' 'е'], .cls false [.rng 'Р' 'Р', .rng 'р' 'р'], .cls false [.rng 'Е' 'Е', .rng 'е' 'е'], .cls false [.rng 'З' 'З', .rng 'з' 'з']], .seqs [.cls false [.rng 'С' 'С', .rng 'с' 'с', .rng 'ᲃ' 'ᲃ'], .cls false [.rng 'П' 'П', .rng 'п' 'п'], .cls false [.rng 'У' 'У', .rng 'у' 'у'], .cls false [.rng 'С' 'С', .rng 'с' 'с', .rng 'ᲃ' 'ᲃ'], .cls false [.rng 'Т' 'Т', .rng 'т' 'т', .rng 'ᲄ' 'ᲄ', .rng 'ᲅ' 'ᲅ'], .cls false [.rng 'Я' 'Я', .rng 'я' 'я']], .seqs [.cls false [.rng 'В' 'В', .rng 'в' 'в', .rng 'ᲀ' 'ᲀ'], .lit [' '], .cls false [.rng 'Т' 'Т', .rng 'т' 'т', .rng 'ᲄ' 'ᲄ', .rng 'ᲅ' 'ᲅ'], .cls false [.rng 'Е' 'Е', .rng 'е' 'е'], .cls false [.rng 'Ч' 'Ч', .rng 'ч' 'ч'], .cls false [.rng 'Е' 'Е', .rng 'е' 'е'], .cls false [.rng 'Н' 'Н', .rng 'н' 'н'], .cls false [.rng 'И' 'И', .rng 'и' 'и'], .cls false [.rng 'Е' 'Е', .rng 'е' 'е']]], .plus (.cls false [.space])]), .cls false [.rng 'Н' 'Н', .rng 'н' 'н'], .cls false [.rng 'Е' 'Е', .rng 'е' 'е'], .cls false [.rng 'Д' 'Д', .rng 'д' 'д', .rng 'ᲁ' 'ᲁ'], .cls false [.rng 'Е' 'Е', .rng 'е' 'е'], .cls false [.rng 'Л' 'Л', .rng 'л' 'л'], .cls false [.rng 'Ю' 'Ю', .rng 'ю' 'ю', .rng 'И' 'И', .rng 'и' 'и'], .grp 3 (.alts [.eos, .noWord])], [.ref 1, .ref 2, .lit ['1', ' ', 'н', 'е', 'д', 'е', 'л', 'ю'], .ref 3]),
    (.seqs [.grp 1 (.alts [.bos, .noWord]), .grp 2 (.seqs [.alts [.seqs [.cls false [.rng 'Ч' 'Ч', .rng 'ч' 'ч'], .cls false [.rng 'Е' 'Е', .rng 'е' 'е'], .cls false [.rng 'Р' 'Р', .rng 'р' 'р'], .cls false [.rng 'Е' 'Е', .rng 'е' 'е'], .cls false [.rng 'З' 'З', .rng 'з' 'з']], .seqs [.cls false [.rng 'С' 'С', .rng 'с' 'с', .rng 'ᲃ' 'ᲃ'], .cls false [.rng 'П' 'П', .rng 'п' 'п'], .cls false [.rng 'У' 'У', .rng 'у' 'у'], .cls false [.rng 'С' 'С', .rng 'с' 'с', .rng 'ᲃ' 'ᲃ'], .cls false [.rng 'Т' 'Т', .rng 'т' 'т', .rng 'ᲄ' 'ᲄ', .rng 'ᲅ' 'ᲅ'], .cls false [.rng 'Я' 'Я', .rng 'я' 'я']], .seqs [.cls false [.rng 'В' 'В', .rng 'в' 'в', .rng 'ᲀ' 'ᲀ'], .lit [' '], .cls false [.rng 'Т' 'Т', .rng 'т' 'т', .rng 'ᲄ' 'ᲄ', .rng 'ᲅ' 'ᲅ'], .cls false [.rng 'Е' 'Е', .rng 'е' 'е'], .cls false [.rng 'Ч' 'Ч', .rng 'ч' 'ч'], .cls false [.rng 'Е' 'Е', .rng 'е' 'е'], .cls false [.rng 'Н' 'Н', .rng 'н' 'н'], .cls false [.rng 'И' 'И', .rng 'и' 'и'], .cls false [.rng 'Е' 'Е', .rng 'е' 'е']]], .plus (.cls false [.space])]), .cls false [.rng 'М' 'М', .rng 'м' 'м'], .cls false [.rng 'Е' 'Е', .rng 'е' 'е'], .cls false [.rng 'С' 'С', .rng 'с' 'с', .rng 'ᲃ' 'ᲃ'], .cls false [.rng 'Я' 'Я', .rng 'я' 'я'], .cls false [.rng 'Ц' 'Ц', .rng 'ц' 'ц'], .opt (.cls false [.rng 'А' 'А', .rng 'а' 'а']), .grp 3 (.alts [.eos, .noWord])], [.ref 1, .ref 2, .lit ['1', ' ', 'м', 'е', 'с', 'я', 'ц'], .ref 3]),
    (.seqs [.grp 1 (.alts [.bos, .noWord]), .grp 2 (.seqs [.alts [.seqs [.cls false [.rng 'Ч' 'Ч', .rng 'ч' 'ч'], .cls false [.rng 'Е' 'Е', .rng 'е' 'е'], .cls false [.rng 'Р' 'Р', .rng 'р' 'р'], .cls false [.rng 'Е' 'Е', .rng 'е' 'е'], .cls false [.rng 'З' 'З', .rng 'з' 'з']], .seqs [.cls false [.rng 'С' 'С', .rng 'с' 'с', .rng 'ᲃ' 'ᲃ'], .cls false [.rng 'П' 'П', .rng 'п' 'п'], .cls false [.rng 'У' 'У', .rng 'у' 'у'], .cls false [.rng 'С' 'С', .rng 'с' 'с', .rng 'ᲃ' 'ᲃ'], .cls false [.rng 'Т' 'Т', .rng 'т' 'т', .rng 'ᲄ' 'ᲄ', .rng 'ᲅ' 'ᲅ'], .cls false [.rng 'Я' 'Я', .rng 'я' 'я']], .seqs [.cls false [.rng 'В' 'В', .rng 'в' 'в', .rng 'ᲀ' 'ᲀ'], .lit [' '], .cls false [.rng 'Т' 'Т', .rng 'т' 'т', .rng 'ᲄ' 'ᲄ', .rng 'ᲅ' 'ᲅ'], .cls false [.rng 'Е' 'Е', .rng 'е' 'е'], .cls false [.rng 'Ч' 'Ч', .rng 'ч' 'ч'], .cls false [.rng 'Е' 'Е', .rng 'е' 'е'], .cls false [.rng 'Н' 'Н', .rng 'н' 'н'], .cls false [.rng 'И' 'И', .rng 'и' 'и'], .cls false [.rng 'Е' 'Е', .rng 'е' 'е']]], .plus (.cls false [.space])]), .cls false [.rng 'Г' 'Г', .rng 'г' 'г'], .cls false [.rng 'О' 'О', .rng 'о' 'о', .rng 'ᲂ' 'ᲂ'], .cls false [.rng 'Д' 'Д', .rng 'д' 'д', .rng 'ᲁ' 'ᲁ'], .opt (.cls false [.rng 'А' 'А', .rng 'а' 'а']), .grp 3 (.alts [.eos, .noWord])], [.ref 1, .ref 2, .lit ['1', ' ', 'г', 'о', 'д'], .ref 3]),
    (.seqs [.grp 1 (.alts [.bos, .noWord]), .grp 2 (.alts [.seqs [.cls true [.digit], .plus (.cls false [.space])], .bos]), .cls false [.rng 'С' 'С', .rng 'с' 'с', .rng 'ᲃ' 'ᲃ'], .cls false [.rng 'Е' 'Е', .rng 'е' 'е'], .cls false [.rng 'К' 'К', .rng 'к' 'к'], .cls false [.rng 'У' 'У', .rng 'у' 'у'], .cls false [.rng 'Н' 'Н', .rng 'н' 'н'], .cls false [.rng 'Д' 'Д', .rng 'д' 'д', .rng 'ᲁ' 'ᲁ'], .cls false [.rng 'У' 'У', .rng 'у' 'у'], .grp 3 (.seqs [.plus (.cls false [.space]), .cls false [.rng 'Н' 'Н', .rng 'н' 'н'], .cls false [.rng 'А' 'А', .rng 'а' 'а'], .cls false [.rng 'З' 'З', .rng 'з' 'з'], .cls false [.rng 'А' 'А', .rng 'а' 'а'], .cls false [.rng 'Д' 'Д', .rng 'д' 'д', .rng 'ᲁ' 'ᲁ']]), .grp 4 (.alts [.eos, .noWord])], [.ref 1, .ref 2, .lit ['1', ' ', 'с', 'е', 'к', 'у', 'н', 'д', 'у'], .ref 3, .ref 4]),
    (.seqs [.grp 1 (.alts [.bos, .noWord]), .grp 2 (.alts [.seqs [.cls true [.digit], .plus (.cls false [.space])], .bos]), .cls false [.rng 'М' 'М', .rng 'м' 'м'], .cls false [.rng 'И' 'И', .rng 'и' 'и'], .cls false [.rng 'Н' 'Н', .rng 'н' 'н'], .cls false [.rng 'У' 'У', .rng 'у' 'у'], .cls false [.rng 'Т' 'Т', .rng 'т' 'т', .rng 'ᲄ' 'ᲄ', .rng 'ᲅ' 'ᲅ'], .cls false [.rng 'У' 'У', .rng 'у' 'у'], .grp 3 (.seqs [.plus (.cls false [.space]), .cls false [.rng 'Н' 'Н', .rng 'н' 'н'], .cls false [.rng 'А' 'А', .rng 'а' 'а'], .cls false [.rng 'З' 'З', .rng 'з' 'з'], .cls false [.rng 'А' 'А', .rng 'а' 'а'], .cls false [.rng 'Д' 'Д', .rng 'д' 'д', .rng 'ᲁ' 'ᲁ']]), .grp 4 (.alts [.eos, .noWord])], [.ref 1, .ref 2, .lit ['1', ' ', 'м', 'и', 'н', 'у', 'т', 'у'], .ref 3, .ref 4]),
    (.seqs [.grp 1 (.alts [.bos, .noWord]), .grp 2 (.alts [.seqs [.cls true [.digit], .plus (.cls false [.space])], .bos]), .cls false [.rng 'Ч' 'Ч', .rng 'ч' 'ч'], .cls false [.rng 'А' 'А', .rng 'а' 'а'], .cls false [.rng 'С' 'С', .rng 'с' 'с', .rng 'ᲃ' 'ᲃ'], .grp 3 (.seqs [.plus (.cls false [.space]), .cls false [.rng 'Н' 'Н', .rng 'н' 'н'], .cls false [.rng 'А' 'А', .rng 'а' 'а'], .cls false [.rng 'З' 'З', .rng 'з' 'з'], .cls false [.rng 'А' 'А', .rng 'а' 'а'], .cls false [.rng 'Д' 'Д', .rng 'д' 'д', .rng 'ᲁ' 'ᲁ']]), .grp 4 (.alts [.eos, .noWord])], [.ref 1, .ref 2, .lit ['1', ' ', 'ч', 'а', 'с'], .ref 3, .ref 4]),
    (.seqs [.grp 1 (.alts [.bos, .noWord]), .grp 2 (.alts [.seqs [.cls true [.digit], .plus (.cls false [.space])], .bos]), .cls false [.rng 'Д' 'Д', .rng 'д' 'д', .rng 'ᲁ' 'ᲁ'], .cls false [.rng 'Е' 'Е', .rng 'е' 'е'], .cls false [.rng 'Н' 'Н', .rng 'н' 'н'], .cls false [.rng 'Ь' 'Ь', .rng 'ь' 'ь'], .grp 3 (.seqs [.plus (.cls false [.space]), .cls false [.rng 'Н' 'Н', .rng 'н' 'н'], .cls false [.rng 'А' 'А', .rng 'а' 'а'], .cls false [.rng 'З' 'З', .rng 'з' 'з'], .cls false [.rng 'А' 'А', .rng 'а' 'а'], .cls false [.rng 'Д' 'Д', .rng 'д' 'д', .rng 'ᲁ' 'ᲁ']]), .grp 4 (.alts [.eos, .noWord])], [.ref 1, .ref 2, .lit ['1', ' ', 'д', 'е', 'н', 'ь'], .ref 3, .ref 4]),
    (.seqs [.grp 1 (.alts [.bos, .noWord]), .grp 2 (.alts [.seqs [.cls true [.digit], .plus (.cls false [.space])], .bos]), .cls false [.rng 'С' 'С', .rng 'с' 'с', .rng 'ᲃ' 'ᲃ'], .cls false [.rng 'У' 'У', .rng 'у' 'у'], .cls false [.rng 'Т' 'Т', .rng 'т' 'т', .rng 'ᲄ' 'ᲄ', .rng 'ᲅ' 'ᲅ'], .cls false [.rng 'К' 'К', .rng 'к' 'к'], .cls false [.rng 'И' 'И', .rng 'и' 'и'], .grp 3 (.seqs [.plus (.cls false [.space]), .cls false [.rng 'Н' 'Н', .rng 'н' 'н'], .cls false [.rng 'А' 'А', .rng 'а' 'а'], .cls false [.rng 'З' 'З', .rng 'з' 'з'], .cls false [.rng 'А' 'А', .rng 'а' 'а'], .cls false [.rng 'Д' 'Д', .rng 'д' 'д', .rng 'ᲁ' 'ᲁ']]), .grp 4 (.alts [.eos, .noWord])], [.ref 1, .ref 2, .lit ['1', ' ', 'с', 'у', 'т', 'к', 'и'], .ref 3, .ref 4]),
    (.seqs [.grp 1 (.alts [.bos, .noWord]), .grp 2 (.alts [.seqs [.cls true [.digit], .plus (.cls false [.space])], .bos]), .cls false [.rng 'Н' 'Н', .rng 'н' 'н'], .cls false [.rng 'Е' 'Е', .rng 'е' 'е'], .cls false [.rng 'Д' 'Д', .rng 'д' 'д', .rng 'ᲁ' 'ᲁ'], .cls false [.rng 'Е' 'Е', .rng 'е' 'е'], .cls false [.rng 'Л' 'Л', .rng 'л' 'л'], .cls false [.rng 'Ю' 'Ю', .rng 'ю' 'ю'], .grp 3 (.seqs [.plus (.cls false [.space]), .cls false [.rng 'Н' 'Н', .rng 'н' 'н'], .cls false [.rng 'А' 'А', .rng 'а' 'а'], .cls false [.rng 'З' 'З', .rng 'з' 'з'], .cls false [.rng 'А' 'А', .rng 'а' 'а'], .cls false [.rng 'Д' 'Д', .rng 'д' 'д', .rng 'ᲁ' 'ᲁ']]), .grp 4 (.alts [.eos, .noWord])], [.ref 1, .ref 2, .lit ['1', ' ', 'н', 'е', 'д', 'е', 'л', 'ю'], .ref 3, .ref 4]),
    (.seqs [.grp 1 (.alts [.bos, .noWord]), .grp 2 (.alts [.seqs [.cls true [.digit], .plus (.cls false [.space])], .bos]), .cls false [.rng 'М' 'М', .rng 'м' 'м'], .cls false [.rng 'Е' 'Е', .rng 'е' 'е'], .cls false [.rng 'С' 'С', .rng 'с' 'с', .rng 'ᲃ' 'ᲃ'], .cls false [.rng 'Я' 'Я', .rng 'я' 'я'], .cls false [.rng 'Ц' 'Ц', .rng 'ц' 'ц'], .grp 3 (.seqs [.plus (.cls false [.space]), .cls false [.rng 'Н' 'Н', .rng 'н' 'н'], .cls false [.rng 'А' 'А', .rng 'а' 'а'], .cls false [.rng 'З' 'З', .rng 'з' 'з'], .cls false [.rng 'А' 'А', .rng 'а' 'а'], .cls false [.rng 'Д' 'Д', .rng 'д' 'д', .rng 'ᲁ' 'ᲁ']]), .grp 4 (.alts [.eos, .noWord])], [.ref 1, .ref 2, .lit ['1', ' ', 'м', 'е', 'с', 'я', 'ц'], .ref 3, .ref 4]),
    (.seqs [.grp 1 (.alts [.bos, .noWord]), .grp 2 (.alts [.seqs [.cls true [.digit], .plus (.cls false [.space])], .bos]), .cls false [.rng 'Г' 'Г', .rng 'г' 'г'], .cls false [.rng 'О' 'О', .rng 'о' 'о', .rng 'ᲂ' 'ᲂ'], .cls false [.rng 'Д' 'Д', .rng 'д' 'д', .rng 'ᲁ' 'ᲁ'], .grp 3 (.seqs [.plus (.cls false [.space]), .cls false [.rng 'Н' 'Н', .rng 'н' 'н'], .cls false [.rng 'А' 'А', .rng 'а' 'а'], .cls false [.rng 'З' 'З', .rng 'з' 'з'], .cls false [.rng 'А' 'А', .rng 'а' 'а'], .cls false [.rng 'Д' 'Д', .rng 'д' 'д', .rng 'ᲁ' 'ᲁ']]), .grp 4 (.alts [.eos, .noWord])], [.ref 1, .ref 2, .lit ['1', ' ', 'г', 'о', 'д'], .ref 3, .ref 4]),
    (.seqs [.grp 1 (.alts [.bos, .noWord]), .grp 2 (.seqs [.seqs [.rep (.cls false [.digit]) 3 3, .star (.cls false [.digit])], .lit ['1']]), .star (.cls false [.space]), .cls false [.rng 'Г' 'Г', .rng 'г' 'г'], .cls false [.rng 'О' 'О', .rng 'о' 'о', .rng 'ᲂ' 'ᲂ'], .cls false [.rng 'Д' 'Д', .rng 'д' 'д', .rng 'ᲁ' 'ᲁ'], .star (.cls false [.space]), .eos, .grp 3 (.alts [.eos, .noWord])], [.ref 1, .ref 2, .ref 3]),
    (.seqs [.grp 1 (.alts [.bos, .noWord]), .grp 2 (.seqs [.star (.cls false [.digit]), .cls false [.rng '0' '0', .rng '2' '9']]), .star (.cls false [.space]), .cls false [.rng 'Г' 'Г', .rng 'г' 'г'], .cls false [.rng 'О' 'О', .rng 'о' 'о', .rng 'ᲂ' 'ᲂ'], .cls false [.rng 'Д' 'Д', .rng 'д' 'д', .rng 'ᲁ' 'ᲁ'], .alts [.eos, .noWord], .grp 3 (.alts [.eos, .noWord])], [.ref 1, .ref 2, .ref 3])],
  relativeRegexes :=
   [(.seqs [.grp 1 (.number), .lit [' '], .cls false [.rng 'С' 'С', .rng 'с' 'с', .rng 'ᲃ' 'ᲃ'], .cls false [.rng 'Е' 'Е', .rng 'е' 'е'], .cls false [.rng 'К' 'К', .rng 'к' 'к'], .cls false [.rng 'У' 'У', .rng 'у' 'у'], .cls false [.rng 'Н' 'Н', .rng 'н' 'н'], .cls false [.rng 'Д' 'Д', .rng 'д' 'д', .rng 'ᲁ' 'ᲁ'], .cls false [.rng 'У' 'У', .rng 'у' 'у'], .lit [' '], .cls false [.rng 'Н' 'Н', .rng 'н' 'н'], .cls false [.rng 'А' 'А', .rng 'а' 'а'], .cls false [.rng 'З' 'З', .rng 'з' 'з'], .cls false [.rng 'А' 'А', .rng 'а' 'а'], .cls false [.rng 'Д' 'Д', .rng 'д' 'д', .rng 'ᲁ' 'ᲁ']], [.ref 1, .lit [' ', 's', 'e', 'c', 'o', 'n', 'd', ' ', 'a', 'g', 'o']]),
    (.seqs [.grp 1 (.number), .lit [' '], .cls false [.rng 'С' 'С', .rng 'с' 'с', .rng 'ᲃ' 'ᲃ'], .cls false [.rng 'Е' 'Е', .rng 'е' 'е'], .cls false [.rng 'К' 'К', .rng 'к' 'к'], .cls false [.rng 'У' 'У', .rng 'у' 'у'], .cls false [.rng 'Н' 'Н', .rng 'н' 'н'], .cls false [.rng 'Д' 'Д', .rng 'д' 'д', .rng 'ᲁ' 'ᲁ'], .cls false [.rng 'Ы' 'Ы', .rng 'ы' 'ы'], .lit [' '], .cls false [.rng 'Н' 'Н', .rng 'н' 'н'], .cls false [.rng 'А' 'А', .rng 'а' 'а'], .cls false [.rng 'З' 'З', .rng 'з' 'з'], .cls false [.rng 'А' 'А', .rng 'а' 'а'], .cls false [.rng 'Д' 'Д', .rng 'д' 'д', .rng 'ᲁ' 'ᲁ']], [.ref 1, .lit [' ', 's', 'e', 'c', 'o', 'n', 'd', ' ', 'a', 'g', 'o']]),
    (.seqs [.cls false [.rng 'Ч' 'Ч', .rng 'ч' 'ч'], .cls false [.rng 'Е' 'Е', .rng 'е' 'е'], .cls false [.rng 'Р' 'Р', .rng 'р' 'р'], .cls false [.rng 'Е' 'Е', .rng 'е' 'е'], .cls false [.rng 'З' 'З', .rng 'з' 'з'], .lit [' '], .grp 1 (.number), .lit [' '], .cls false [.rng 'С' 'С', .rng 'с' 'с', .rng 'ᲃ' 'ᲃ'], .cls false [.rng 'Е' 'Е', .rng 'е' 'е'], .cls false [.rng 'К' 'К', .rng 'к' 'к'], .cls false [.rng 'У' 'У', .rng 'у' 'у'], .cls false [.rng 'Н' 'Н', .rng 'н' 'н'], .cls false [.rng 'Д' 'Д', .rng 'д' 'д', .rng 'ᲁ' 'ᲁ'], .cls false [.rng 'У' 'У', .rng 'у' 'у']], [.lit ['i', 'n', ' '], .ref 1, .lit [' ', 's', 'e', 'c', 'o', 'n', 'd']]),
    (.seqs [.cls false [.rng 'Ч' 'Ч', .rng 'ч' 'ч'], .cls false [.rng 'Е' 'Е', .rng 'е' 'е'], .cls false [.rng 'Р' 'Р', .rng 'р' 'р'], .cls false [.rng 'Е' 'Е', .rng 'е' 'е'], .cls false [.rng 'З' 'З', .rng 'з' 'з'], .lit [' '], .grp 1 (.number), .lit [' '], .cls false [.rng 'С' 'С', .rng 'с' 'с', .rng 'ᲃ' 'ᲃ'], .cls false [.rng 'Е' 'Е', .rng 'е' 'е'], .cls false [.rng 'К' 'К', .rng 'к' 'к'], .cls false [.rng 'У' 'У', .rng 'у' 'у'], .cls false [.rng 'Н' 'Н', .rng 'н' 'н'], .cls false [.rng 'Д' 'Д', .rng 'д' 'д', .rng 'ᲁ' 'ᲁ'], .cls false [.rng 'Ы' 'Ы', .rng 'ы' 'ы']], [.lit ['i', 'n', ' '], .ref 1, .lit [' ', 's', 'e', 'c', 'o', 'n', 'd']]),
    (.seqs [.grp 1 (.number), .lit [' '], .cls false [.rng 'М' 'М', .rng 'м' 'м'], .cls false [.rng 'Е' 'Е', .rng 'е' 'е'], .cls false [.rng 'С' 'С', .rng 'с' 'с', .rng 'ᲃ' 'ᲃ'], .cls false [.rng 'Я' 'Я', .rng 'я' 'я'], .cls false [.rng 'Ц' 'Ц', .rng 'ц' 'ц'], .cls false [.rng 'А' 'А', .rng 'а' 'а'], .lit [' '], .cls false [.rng 'Н' 'Н', .rng 'н' 'н'], .cls false [.rng 'А' 'А', .rng 'а' 'а'], .cls false [.rng 'З' 'З', .rng 'з' 'з'], .cls false [.rng 'А' 'А', .rng 'а' 'а'], .cls false [.rng 'Д' 'Д', .rng 'д' 'д', .rng 'ᲁ' 'ᲁ']], [.ref 1, .lit [' ', 'm', 'o', 'n', 't', 'h', ' ', 'a', 'g', 'o']]),
    (.seqs [.grp 1 (.number), .lit [' '], .cls false [.rng 'М' 'М', .rng 'м' 'м'], .cls false [.rng 'И' 'И', .rng 'и' 'и'], .cls false [.rng 'Н' 'Н', .rng 'н' 'н'], .cls false [.rng 'У' 'У', .rng 'у' 'у'], .cls false [.rng 'Т' 'Т', .rng 'т' 'т', .rng 'ᲄ' 'ᲄ', .rng 'ᲅ' 'ᲅ'], .cls false [.rng 'У' 'У', .rng 'у' 'у'], .lit [' '], .cls false [.rng 'Н' 'Н', .rng 'н' 'н'], .cls false [.rng 'А' 'А', .rng 'а' 'а'], .cls false [.rng 'З' 'З', .rng 'з' 'з'], .cls false [.rng 'А' 'А', .rng 'а' 'а'], .cls false [.rng 'Д' 'Д', .rng 'д' 'д', .rng 'ᲁ' 'ᲁ']], [.ref 1, .lit [' ', 'm', 'i', 'n', 'u', 't', 'e', ' ', 'a', 'g', 'o']]),
    (.seqs [.grp 1 (.number), .lit [' '], .cls false [.rng 'М' 'М', .rng 'м' 'м'], .cls false [.rng 'И' 'И', .rng 'и' 'и'], .cls false [.rng 'Н' 'Н', .rng 'н' 'н'], .cls false [.rng 'У' 'У', .rng 'у' 'у'], .cls false [.rng 'Т' 'Т', .rng 'т' 'т', .rng 'ᲄ' 'ᲄ', .rng 'ᲅ' 'ᲅ'], .cls false [.rng 'Ы' 'Ы', .rng 'ы' 'ы'], .lit [' '], .cls false [.rng 'Н' 'Н', .rng 'н' 'н'], .cls false [.rng 'А' 'А', .rng 'а' 'а'], .cls false [.rng 'З' 'З', .rng 'з' 'з'], .cls false [.rng 'А' 'А', .rng 'а' 'а'], .cls false [.rng 'Д' 'Д', .rng 'д' 'д', .rng 'ᲁ' 'ᲁ']], [.ref 1, .lit [' ', 'm', 'i', 'n', 'u', 't', 'e', ' ', 'a', 'g', 'o']]),
    (.seqs [.grp 1 (.number), .lit [' '], .cls false [.rng 'Н' 'Н', .rng 'н' 'н'], .cls false [.rng 'Е' 'Е', .rng 'е' 'е'], .cls false [.rng 'Д' 'Д', .rng 'д' 'д', .rng 'ᲁ' 'ᲁ'], .cls false [.rng 'Е' 'Е', .rng 'е' 'е'], .cls false [.rng 'Л' 'Л', .rng 'л' 'л'], .cls false [.rng 'И' 'И', .rng 'и' 'и'], .lit [' '], .cls false [.rng 'Н' 'Н', .rng 'н' 'н'], .cls false [.rng 'А' 'А', .rng 'а' 'а'], .cls false [.rng 'З' 'З', .rng 'з' 'з'], .cls false [.rng 'А' 'А', .rng 'а' 'а'], .cls false [.rng 'Д' 'Д', .rng 'д' 'д', .rng 'ᲁ' 'ᲁ']], [.ref 1, .lit [' ', 'w', 'e', 'e', 'k', ' ', 'a', 'g', 'o']]),
    (.seqs [.grp 1 (.number), .lit [' '], .cls false [.rng 'Н' 'Н', .rng 'н' 'н'], .cls false [.rng 'Е' 'Е', .rng 'е' 'е'], .cls false [.rng 'Д' 'Д', .rng 'д' 'д', .rng 'ᲁ' 'ᲁ'], .cls false [.rng 'Е' 'Е', .rng 'е' 'е'], .cls false [.rng 'Л' 'Л', .rng 'л' 'л'], .cls false [.rng 'Ю' 'Ю', .rng 'ю' 'ю'], .lit [' '], .cls false [.rng 'Н' 'Н', .rng 'н' 'н'], .cls false [.rng 'А' 'А', .rng 'а' 'а'], .cls false [.rng 'З' 'З', .rng 'з' 'з'], .cls false [.rng 'А' 'А', .rng 'а' 'а'], .cls false [.rng 'Д' 'Д', .rng 'д' 'д', .rng 'ᲁ' 'ᲁ']], [.ref 1, .lit [' ', 'w', 'e', 'e', 'k', ' ', 'a', 'g', 'o']]),
    (.seqs [.cls false [.rng 'Ч' 'Ч', .rng 'ч' 'ч'], .cls false [.rng 'Е' 'Е', .rng 'е' 'е'], .cls false [.rng 'Р' 'Р', .rng 'р' 'р'], .cls false [.rng 'Е' 'Е', .rng 'е' 'е'], .cls false [.rng 'З' 'З', .rng 'з' 'з'], .lit [' '], .grp 1 (.number), .lit [' '], .cls false [.rng 'М' 'М', .rng 'м' 'м'], .cls false [.rng 'Е' 'Е', .rng 'е' 'е'], .cls false [.rng 'С' 'С', .rng 'с' 'с', .rng 'ᲃ' 'ᲃ'], .cls false [.rng 'Я' 'Я', .rng 'я' 'я'], .cls false [.rng 'Ц' 'Ц', .rng 'ц' 'ц'], .cls false [.rng 'А' 'А', .rng 'а' 'а']], [.lit ['i', 'n', ' '], .ref 1, .lit [' ', 'm', 'o', 'n', 't', 'h']]),
    (.seqs [.cls false [.rng 'Ч' 'Ч', .rng 'ч' 'ч'], .cls false [.rng 'Е' 'Е', .rng 'е' 'е'], .cls false [.rng 'Р' 'Р', .rng 'р' 'р'], .cls false [.rng 'Е' 'Е', .rng 'е' 'е'], .cls false [.rng 'З' 'З', .rng 'з' 'з'], .lit [' '], .grp 1 (.number), .lit [' '], .cls false [.rng 'М' 'М', .rng 'м' 'м'], .cls false [.rng 'И' 'И', .rng 'и' 'и'], .cls false [.rng 'Н' 'Н', .rng 'н' 'н'], .cls false [.rng 'У' 'У', .rng 'у' 'у'], .cls false [.rng 'Т' 'Т', .rng 'т' 'т', .rng 'ᲄ' 'ᲄ', .rng 'ᲅ' 'ᲅ'], .cls false [.rng 'У' 'У', .rng 'у' 'у']], [.lit ['i', 'n', ' '], .ref 1, .lit [' ', 'm', 'i', 'n', 'u', 't', 'e']]),
    (.seqs [.cls false [.rng 'Ч' 'Ч', .rng 'ч' 'ч'], .cls false [.rng 'Е' 'Е', .rng 'е' 'е'], .cls false [.rng 'Р' 'Р', .rng 'р' 'р'], .cls false [.rng 'Е' 'Е', .rng 'е' 'е'], .cls false [.rng 'З' 'З', .rng 'з' 'з'], .lit [' '], .grp 1 (.number), .lit [' '], .cls false [.rng 'М' 'М', .rng 'м' 'м'], .cls false [.rng 'И' 'И', .rng 'и' 'и'], .cls false [.rng 'Н' 'Н', .rng 'н' 'н'], .cls false [.rng 'У' 'У', .rng 'у' 'у'], .cls false [.rng 'Т' 'Т', .rng 'т' 'т', .rng 'ᲄ' 'ᲄ', .rng 'ᲅ' 'ᲅ'], .cls false [.rng 'Ы' 'Ы', .rng 'ы' 'ы']], [.lit ['i', 'n', ' '], .ref 1, .lit [' ', 'm', 'i', 'n', 'u', 't', 'e']]),
    (.seqs [.cls false [.rng 'Ч' 'Ч', .rng 'ч' 'ч'], .cls false [.rng 'Е' 'Е', .rng 'е' 'е'], .cls false [.rng 'Р' 'Р', .rng 'р' 'р'], .cls false [.rng 'Е' 'Е', .rng 'е' 'е'], .cls false [.rng 'З' 'З', .rng 'з' 'з'], .lit [' '], .grp 1 (.number), .lit [' '], .cls false [.rng 'Н' 'Н', .rng 'н' 'н'], .cls false [.rng 'Е' 'Е', .rng 'е' 'е'], .cls false [.rng 'Д' 'Д', .rng 'д' 'д', .rng 'ᲁ' 'ᲁ'], .cls false [.rng 'Е' 'Е', .rng 'е' 'е'], .cls false [.rng 'Л' 'Л', .rng 'л' 'л'], .cls false [.rng 'И' 'И', .rng 'и' 'и']], [.lit ['i', 'n', ' '], .ref 1, .lit [' ', 'w', 'e', 'e', 'k']]),
    (.seqs [.cls false [.rng 'Ч' 'Ч', .rng 'ч' 'ч'], .cls false [.rng 'Е' 'Е', .rng 'е' 'е'], .cls false [.rng 'Р' 'Р', .rng 'р' 'р'], .cls false [.rng 'Е' 'Е', .rng 'е' 'е'], .cls false [.rng 'З' 'З', .rng 'з' 'з'], .lit [' '], .grp 1 (.number), .lit [' '], .cls false [.rng 'Н' 'Н', .rng 'н' 'н'], .cls false [.rng 'Е' 'Е', .rng 'е' 'е'], .cls false [.rng 'Д' 'Д', .rng 'д' 'д', .rng 'ᲁ' 'ᲁ'], .cls false [.rng 'Е' 'Е', .rng 'е' 'е'], .cls false [.rng 'Л' 'Л', .rng 'л' 'л'], .cls false [.rng 'Ю' 'Ю', .rng 'ю' 'ю']], [.lit ['i', 'n', ' '], .ref 1, .lit [' ', 'w', 'e', 'e', 'k']]),
    (.seqs [.grp 1 (.number), .lit [' '], .cls false [.rng 'М' 'М', .rng 'м' 'м'], .cls false [.rng 'Е' 'Е', .rng 'е' 'е'], .cls false [.rng 'С' 'С', .rng 'с' 'с', .rng 'ᲃ' 'ᲃ'], .cls false [.rng 'Я' 'Я', .rng 'я' 'я'], .cls false [.rng 'Ц' 'Ц', .rng 'ц' 'ц'], .lit [' '], .cls false [.rng 'Н' 'Н', .rng 'н' 'н'], .cls false [.rng 'А' 'А', .rng 'а' 'а'], .cls false [.rng 'З' 'З', .rng 'з' 'з'], .cls false [.rng 'А' 'А', .rng 'а' 'а'], .cls false [.rng 'Д' 'Д', .rng 'д' 'д', .rng 'ᲁ' 'ᲁ']], [.ref 1, .lit [' ', 'm', 'o', 'n', 't', 'h', ' ', 'a', 'g', 'o']]),
    (.seqs [.cls false [.rng 'Ч' 'Ч', .rng 'ч' 'ч'], .cls false [.rng 'Е' 'Е', .rng 'е' 'е'], .cls false [.rng 'Р' 'Р', .rng 'р' 'р'], .cls false [.rng 'Е' 'Е', .rng 'е' 'е'], .cls false [.rng 'З' 'З', .rng 'з' 'з'], .lit [' '], .grp 1 (.number), .lit [' '], .cls false [.rng 'М' 'М', .rng 'м' 'м'], .cls false [.rng 'Е' 'Е', .rng 'е' 'е'], .cls false [.rng 'С' 'С', .rng 'с' 'с', .rng 'ᲃ' 'ᲃ'], .cls false [.rng 'Я' 'Я', .rng 'я' 'я'], .cls false [.rng 'Ц' 'Ц', .rng 'ц' 'ц']], [.lit ['i', 'n', ' '], .ref 1, .lit [' ', 'm', 'o', 'n', 't', 'h']]),
    (.seqs [.grp 1 (.number), .lit [' '], .cls false [.rng 'Г' 'Г', .rng 'г' 'г'], .cls false [.rng 'О' 'О', .rng 'о' 'о', .rng 'ᲂ' 'ᲂ'], .cls false [.rng 'Д' 'Д', .rng 'д' 'д', .rng 'ᲁ' 'ᲁ'], .cls false [.rng 'А' 'А', .rng 'а' 'а'], .lit [' '], .cls false [.rng 'Н' 'Н', .rng 'н' 'н'], .cls false [.rng 'А' 'А', .rng 'а' 'а'], .cls false [.rng 'З' 'З', .rng 'з' 'з'], .cls false [.rng 'А' 'А', .rng 'а' 'а'], .cls false [.rng 'Д' 'Д', .rng 'д' 'д', .rng 'ᲁ' 'ᲁ']], [.ref 1, .lit [' ', 'y', 'e', 'a', 'r', ' ', 'a', 'g', 'o']]),
    (.seqs [.grp 1 (.number), .lit [' '], .cls false [.rng 'Д' 'Д', .rng 'д' 'д', .rng 'ᲁ' 'ᲁ'], .cls false [.rng 'Е' 'Е', .rng 'е' 'е'], .cls false [.rng 'Н' 'Н', .rng 'н' 'н'], .cls false [.rng 'Ь' 'Ь', .rng 'ь' 'ь'], .lit [' '], .cls false [.rng 'Н' 'Н', .rng 'н' 'н'], .cls false [.rng 'А' 'А', .rng 'а' 'а'], .cls false [.rng 'З' 'З', .rng 'з' 'з'], .cls false [.rng 'А' 'А', .rng 'а' 'а'], .cls false [.rng 'Д' 'Д', .rng 'д' 'д', .rng 'ᲁ' 'ᲁ']], [.ref 1, .lit [' ', 'd', 'a', 'y', ' ', 'a', 'g', 'o']]),
    (.seqs [.grp 1 (.number), .lit [' '], .cls false [.rng 'Ч' 'Ч', .rng 'ч' 'ч'], .cls false [.rng 'А' 'А', .rng 'а' 'а'], .cls false [.rng 'С' 'С', .rng 'с' 'с', .rng 'ᲃ' 'ᲃ'], .cls false [.rng 'А' 'А', .rng 'а' 'а'], .lit [' '], .cls false [.rng 'Н' 'Н', .rng 'н' 'н'], .cls false [.rng 'А' 'А', .rng 'а' 'а'], .cls false [.rng 'З' 'З', .rng 'з' 'з'], .cls false [.rng 'А' 'А', .rng 'а' 'а'], .cls false [.rng 'Д' 'Д', .rng 'д' 'д', .rng 'ᲁ' 'ᲁ']], [.ref 1, .lit [' ', 'h', 'o', 'u', 'r', ' ', 'a', 'g', 'o']]),
    (.seqs [.cls false [.rng 'Ч' 'Ч', .rng 'ч' 'ч'], .cls false [.rng 'Е' 'Е', .rng 'е' 'е'], .cls false [.rng 'Р' 'Р', .rng 'р' 'р'], .cls false [.rng 'Е' 'Е', .rng 'е' 'е'], .cls false [.rng 'З' 'З', .rng 'з' 'з'], .lit [' '], .grp 1 (.number), .lit [' '], .cls false [.rng 'Г' 'Г', .rng 'г' 'г'], .cls false [.rng 'О' 'О', .rng 'о' 'о', .rng 'ᲂ' 'ᲂ'], .cls false [.rng 'Д' 'Д', .rng 'д' 'д', .rng 'ᲁ' 'ᲁ'], .cls false [.rng 'А' 'А', .rng 'а' 'а']], [.lit ['i', 'n', ' '], .ref 1, .lit [' ', 'y', 'e', 'a', 'r']]),
    (.seqs [.cls false [.rng 'Ч' 'Ч', .rng 'ч' 'ч'], .cls false [.rng 'Е' 'Е', .rng 'е' 'е'], .cls false [.rng 'Р' 'Р', .rng 'р' 'р'], .cls false [.rng 'Е' 'Е', .rng 'е' 'е'], .cls false [.rng 'З' 'З', .rng 'з' 'з'], .lit [' '], .grp 1 (.number), .lit [' '], .cls false [.rng 'Д' 'Д', .rng 'д' 'д', .rng 'ᲁ' 'ᲁ'], .cls false [.rng 'Е' 'Е', .rng 'е' 'е'], .cls false [.rng 'Н' 'Н', .rng 'н' 'н'], .cls false [.rng 'Ь' 'Ь', .rng 'ь' 'ь']], [.lit ['i', 'n', ' '], .ref 1, .lit [' ', 'd', 'a', 'y']]),
    (.seqs [.cls false [.rng 'Ч' 'Ч', .rng 'ч' 'ч'], .cls false [.rng 'Е' 'Е', .rng 'е' 'е'], .cls false [.rng 'Р' 'Р', .rng 'р' 'р'], .cls false [.rng 'Е' 'Е', .rng 'е' 'е'], .cls false [.rng 'З' 'З', .rng 'з' 'з'], .lit [' '], .grp 1 (.number), .lit [' '], .cls false [.rng 'Ч' 'Ч', .rng 'ч' 'ч'], .cls false [.rng 'А' 'А', .rng 'а' 'а'], .cls false [.rng 'С' 'С', .rng 'с' 'с', .rng 'ᲃ' 'ᲃ'], .cls false [.rng 'А' 'А', .rng 'а' 'а']], [.lit ['i', 'n', ' '], .ref 1, .lit [' ', 'h', 'o', 'u', 'r']]),
    (.seqs [.grp 1 (.number), .lit [' '], .cls false [.rng 'Г' 'Г', .rng 'г' 'г'], .cls false [.rng 'О' 'О', .rng 'о' 'о', .rng 'ᲂ' 'ᲂ'], .cls false [.rng 'Д' 'Д', .rng 'д' 'д', .rng 'ᲁ' 'ᲁ'], .lit [' '], .cls false [.rng 'Н' 'Н', .rng 'н' 'н'], .cls false [.rng 'А' 'А', .rng 'а' 'а'], .cls false [.rng 'З' 'З', .rng 'з' 'з'], .cls false [.rng 'А' 'А', .rng 'а' 'а'], .cls false [.rng 'Д' 'Д', .rng 'д' 'д', .rng 'ᲁ' 'ᲁ']], [.ref 1, .lit [' ', 'y', 'e', 'a', 'r', ' ', 'a', 'g', 'o']]),
    (.seqs [.grp 1 (.number), .lit [' '], .cls false [.rng 'Д' 'Д', .rng 'д' 'д', .rng 'ᲁ' 'ᲁ'], .cls false [.rng 'Н' 'Н', .rng 'н' 'н'], .cls false [.rng 'Я' 'Я', .rng 'я' 'я'], .lit [' '], .cls false [.rng 'Н' 'Н', .rng 'н' 'н'], .cls false [.rng 'А' 'А', .rng 'а' 'а'], .cls false [.rng 'З' 'З', .rng 'з' 'з'], .cls false [.rng 'А' 'А', .rng 'а' 'а'], .cls false [.rng 'Д' 'Д', .rng 'д' 'д', .rng 'ᲁ' 'ᲁ']], [.ref 1, .lit [' ', 'd', 'a', 'y', ' ', 'a', 'g', 'o']]),
    (.seqs [.grp 1 (.number), .lit [' '], .cls false [.rng 'М' 'М', .rng 'м' 'м'], .cls false [.rng 'Е' 'Е', .rng 'е' 'е'], .cls false [.rng 'С' 'С', .rng 'с' 'с', .rng 'ᲃ' 'ᲃ'], .lit [' '], .cls false [.rng 'Н' 'Н', .rng 'н' 'н'], .cls false [.rng 'А' 'А', .rng 'а' 'а'], .cls false [.rng 'З' 'З', .rng 'з' 'з'], .cls false [.rng 'А' 'А', .rng 'а' 'а'], .cls false [.rng 'Д' 'Д', .rng 'д' 'д', .rng 'ᲁ' 'ᲁ']], [.ref 1, .lit [' ', 'm', 'o', 'n', 't', 'h', ' ', 'a', 'g', 'o']]),
    (.seqs [.grp 1 (.number), .lit [' '], .cls false [.rng 'М' 'М', .rng 'м' 'м'], .cls false [.rng 'И' 'И', .rng 'и' 'и'], .cls false [.rng 'Н' 'Н', .rng 'н' 'н'], .lit [' '], .cls false [.rng 'Н' 'Н', .rng 'н' 'н'], .cls false [.rng 'А' 'А', .rng 'а' 'а'], .cls false [.rng 'З' 'З', .rng 'з' 'з'], .cls false [.rng 'А' 'А', .rng 'а' 'а'], .cls false [.rng 'Д' 'Д', .rng 'д' 'д', .rng 'ᲁ' 'ᲁ']], [.ref 1, .lit [' ', 'm', 'i', 'n', 'u', 't', 'e', ' ', 'a', 'g', 'o']]),
    (.seqs [.grp 1 (.number), .lit [' '], .cls false [.rng 'Н' 'Н', .rng 'н' 'н'], .cls false [.rng 'Е' 'Е', .rng 'е' 'е'], .cls false [.rng 'Д' 'Д', .rng 'д' 'д', .rng 'ᲁ' 'ᲁ'], .lit [' '], .cls false [.rng 'Н' 'Н', .rng 'н' 'н'], .cls false [.rng 'А' 'А', .rng 'а' 'а'], .cls false [.rng 'З' 'З', .rng 'з' 'з'], .cls false [.rng 'А' 'А', .rng 'а' 'а'], .cls false [.rng 'Д' 'Д', .rng 'д' 'д', .rng 'ᲁ' 'ᲁ']], [.ref 1, .lit [' ', 'w', 'e', 'e', 'k', ' ', 'a', 'g', 'o']]),
    (.seqs [.grp 1 (.number), .lit [' '], .cls false [.rng 'С' 'С', .rng 'с' 'с', .rng 'ᲃ' 'ᲃ'], .cls false [.rng 'Е' 'Е', .rng 'е' 'е'], .cls false [.rng 'К' 'К', .rng 'к' 'к'], .lit [' '], .cls false [.rng 'Н' 'Н', .rng 'н' 'н'], .cls false [.rng 'А' 'А', .rng 'а' 'а'], .cls false [.rng 'З' 'З', .rng 'з' 'з'], .cls false [.rng 'А' 'А', .rng 'а' 'а'], .cls false [.rng 'Д' 'Д', .rng 'д' 'д', .rng 'ᲁ' 'ᲁ']], [.ref 1, .lit [' ', 's', 'e', 'c', 'o', 'n', 'd', ' ', 'a', 'g', 'o']]),
    (.seqs [.grp 1 (.number), .lit [' '], .cls false [.rng 'Ч' 'Ч', .rng 'ч' 'ч'], .cls false [.rng 'А' 'А', .rng 'а' 'а'], .cls false [.rng 'С' 'С', .rng 'с' 'с', .rng 'ᲃ' 'ᲃ'], .lit [' '], .cls false [.rng 'Н' 'Н', .rng 'н' 'н'], .cls false [.rng 'А' 'А', .rng 'а' 'а'], .cls false [.rng 'З' 'З', .rng 'з' 'з'], .cls false [.rng 'А' 'А', .rng 'а' 'а'], .cls false [.rng 'Д' 'Д', .rng 'д' 'д', .rng 'ᲁ' 'ᲁ']], [.ref 1, .lit [' ', 'h', 'o', 'u', 'r', ' ', 'a', 'g', 'o']]),
    (.seqs [.cls false [.rng 'Ч' 'Ч', .rng 'ч' 'ч'], .cls false [.rng 'Е' 'Е', .rng 'е' 'е'], .cls false [.rng 'Р' 'Р', .rng 'р' 'р'], .cls false [.rng 'Е' 'Е', .rng 'е' 'е'], .cls false [.rng 'З' 'З', .rng 'з' 'з'], .lit [' '], .grp 1 (.number), .lit [' '], .cls false [.rng 'Г' 'Г', .rng 'г' 'г'], .cls false [.rng 'О' 'О', .rng 'о' 'о', .rng 'ᲂ' 'ᲂ'], .cls false [.rng 'Д' 'Д', .rng 'д' 'д', .rng 'ᲁ' 'ᲁ']], [.lit ['i', 'n', ' '], .ref 1, .lit [' ', 'y', 'e', 'a', 'r']]),
    (.seqs [.cls false [.rng 'Ч' 'Ч', .rng 'ч' 'ч'], .cls false [.rng 'Е' 'Е', .rng 'е' 'е'], .cls false [.rng 'Р' 'Р', .rng 'р' 'р'], .cls false [.rng 'Е' 'Е', .rng 'е' 'е'], .cls false [.rng 'З' 'З', .rng 'з' 'з'], .lit [' '], .grp 1 (.number), .lit [' '], .cls false [.rng 'Д' 'Д', .rng 'д' 'д', .rng 'ᲁ' 'ᲁ'], .cls false [.rng 'Н' 'Н', .rng 'н' 'н'], .cls false [.rng 'Я' 'Я', .rng 'я' 'я']], [.lit ['i', 'n', ' '], .ref 1, .lit [' ', 'd', 'a', 'y']]),
    (.seqs [.cls false [.rng 'Ч' 'Ч', .rng 'ч' 'ч'], .cls false [.rng 'Е' 'Е', .rng 'е' 'е'], .cls false [.rng 'Р' 'Р', .rng 'р' 'р'], .cls false [.rng 'Е' 'Е', .rng 'е' 'е'], .cls false [.rng 'З' 'З', .rng 'з' 'з'], .lit [' '], .grp 1 (.number), .lit [' '], .cls false [.rng 'М' 'М', .rng 'м' 'м'], .cls false [.rng 'Е' 'Е', .rng 'е' 'е'], .cls false [.rng 'С' 'С', .rng 'с' 'с', .rng 'ᲃ' 'ᲃ']], [.lit ['i', 'n', ' '], .ref 1, .lit [' ', 'm', 'o', 'n', 't', 'h']]),
    (.seqs [.cls false [.rng 'Ч' 'Ч', .rng 'ч' 'ч'], .cls false [.rng 'Е' 'Е', .rng 'е' 'е'], .cls false [.rng 'Р' 'Р', .rng 'р' 'р'], .cls false [.rng 'Е' 'Е', .rng 'е' 'е'], .cls false [.rng 'З' 'З', .rng 'з' 'з'], .lit [' '], .grp 1 (.number), .lit [' '], .cls false [.rng 'М' 'М', .rng 'м' 'м'], .cls false [.rng 'И' 'И', .rng 'и' 'и'], .cls false [.rng 'Н' 'Н', .rng 'н' 'н']], [.lit ['i', 'n', ' '], .ref 1, .lit [' ', 'm', 'i', 'n', 'u', 't', 'e']]),
    (.seqs [.cls false [.rng 'Ч' 'Ч', .rng 'ч' 'ч'], .cls false [.rng 'Е' 'Е', .rng 'е' 'е'], .cls false [.rng 'Р' 'Р', .rng 'р' 'р'], .cls false [.rng 'Е' 'Е', .rng 'е' 'е'], .cls false [.rng 'З' 'З', .rng 'з' 'з'], .lit [' '], .grp 1 (.number), .lit [' '], .cls false [.rng 'Н' 'Н', .rng 'н' 'н'], .cls false [.rng 'Е' 'Е', .rng 'е' 'е'], .cls false [.rng 'Д' 'Д', .rng 'д' 'д', .rng 'ᲁ' 'ᲁ']], [.lit ['i', 'n', ' '], .ref 1, .lit [' ', 'w', 'e', 'e', 'k']]),
    (.seqs [.cls false [.rng 'Ч' 'Ч', .rng 'ч' 'ч'], .cls false [.rng 'Е' 'Е', .rng 'е' 'е'], .cls false [.rng 'Р' 'Р', .rng 'р' 'р'], .cls false [.rng 'Е' 'Е', .rng 'е' 'е'], .cls false [.rng 'З' 'З', .rng 'з' 'з'], .lit [' '], .grp 1 (.number), .lit [' '], .cls false [.rng 'С' 'С', .rng 'с' 'с', .rng 'ᲃ' 'ᲃ'], .cls false [.rng 'Е' 'Е', .rng 'е' 'е'], .cls false [.rng 'К' 'К', .rng 'к' 'к']], [.lit ['i', 'n', ' '], .ref 1, .lit [' ', 's', 'e', 'c', 'o', 'n', 'd']]),
    (.seqs [.cls false [.rng 'Ч' 'Ч', .rng 'ч' 'ч'], .cls false [.rng 'Е' 'Е', .rng 'е' 'е'], .cls false [.rng 'Р' 'Р', .rng 'р' 'р'], .cls false [.rng 'Е' 'Е', .rng 'е' 'е'], .cls false [.rng 'З' 'З', .rng 'з' 'з'], .lit [' '], .grp 1 (.number), .lit [' '], .cls false [.rng 'Ч' 'Ч', .rng 'ч' 'ч'], .cls false [.rng 'А' 'А', .rng 'а' 'а'], .cls false [.rng 'С' 'С', .rng 'с' 'с', .rng 'ᲃ' 'ᲃ']], [.lit ['i', 'n', ' '], .ref 1, .lit [' ', 'h', 'o', 'u', 'r']]),
    (.seqs [.grp 1 (.number), .lit [' '], .cls false [.rng 'Д' 'Д', .rng 'д' 'д', .rng 'ᲁ' 'ᲁ'], .cls false [.rng 'Н' 'Н', .rng 'н' 'н'], .lit [' '], .cls false [.rng 'Н' 'Н', .rng 'н' 'н'], .cls false [.rng 'А' 'А', .rng 'а' 'а'], .cls false [.rng 'З' 'З', .rng 'з' 'з'], .cls false [.rng 'А' 'А', .rng 'а' 'а'], .cls false [.rng 'Д' 'Д', .rng 'д' 'д', .rng 'ᲁ' 'ᲁ']], [.ref 1, .lit [' ', 'd', 'a', 'y', ' ', 'a', 'g', 'o']]),
    (.seqs [.cls false [.rng 'Ч' 'Ч', .rng 'ч' 'ч'], .cls false [.rng 'Е' 'Е', .rng 'е' 'е'], .cls false [.rng 'Р' 'Р', .rng 'р' 'р'], .cls false [.rng 'Е' 'Е', .rng 'е' 'е'], .cls false [.rng 'З' 'З', .rng 'з' 'з'], .lit [' '], .grp 1 (.number), .lit [' '], .cls false [.rng 'Д' 'Д', .rng 'д' 'д', .rng 'ᲁ' 'ᲁ'], .cls false [.rng 'Н' 'Н', .rng 'н' 'н']], [.lit ['i', 'n', ' '], .ref 1, .lit [' ', 'd', 'a', 'y']]),
    (.seqs [.grp 1 (.number), .lit [' '], .cls false [.rng 'Г' 'Г', .rng 'г' 'г'], .lit [' '], .cls false [.rng 'Н' 'Н', .rng 'н' 'н'], .cls false [.rng 'А' 'А', .rng 'а' 'а'], .cls false [.rng 'З' 'З', .rng 'з' 'з'], .cls false [.rng 'А' 'А', .rng 'а' 'а'], .cls false [.rng 'Д' 'Д', .rng 'д' 'д', .rng 'ᲁ' 'ᲁ']], [.ref 1, .lit [' ', 'y', 'e', 'a', 'r', ' ', 'a', 'g', 'o']]),
    (.seqs [.grp 1 (.number), .lit [' '], .cls false [.rng 'Д' 'Д', .rng 'д' 'д', .rng 'ᲁ' 'ᲁ'], .lit [' '], .cls false [.rng 'Н' 'Н', .rng 'н' 'н'], .cls false [.rng 'А' 'А', .rng 'а' 'а'], .cls false [.rng 'З' 'З', .rng 'з' 'з'], .cls false [.rng 'А' 'А', .rng 'а' 'а'], .cls false [.rng 'Д' 'Д', .rng 'д' 'д', .rng 'ᲁ' 'ᲁ']], [.ref 1, .lit [' ', 'd', 'a', 'y', ' ', 'a', 'g', 'o']]),
    (.seqs [.grp 1 (.number), .lit [' '], .cls false [.rng 'Ч' 'Ч', .rng 'ч' 'ч'], .lit [' '], .cls false [.rng 'Н' 'Н', .rng 'н' 'н'], .cls false [.rng 'А' 'А', .rng 'а' 'а'], .cls false [.rng 'З' 'З', .rng 'з' 'з'], .cls false [.rng 'А' 'А', .rng 'а' 'а'], .cls false [.rng 'Д' 'Д', .rng 'д' 'д', .rng 'ᲁ' 'ᲁ']], [.ref 1, .lit [' ', 'h', 'o', 'u', 'r', ' ', 'a', 'g', 'o']]),
    (.seqs [.cls false [.rng 'Ч' 'Ч', .rng 'ч' 'ч'], .cls false [.rng 'Е' 'Е', .rng 'е' 'е'], .cls false [.rng 'Р' 'Р', .rng 'р' 'р'], .cls false [.rng 'Е' 'Е', .rng 'е' 'е'], .cls false [.rng 'З' 'З', .rng 'з' 'з'], .lit [' '], .grp 1 (.number), .lit [' '], .cls false [.rng 'Г' 'Г', .rng 'г' 'г']], [.lit ['i', 'n', ' '], .ref 1, .lit [' ', 'y', 'e', 'a', 'r']]),
    (.seqs [.cls false [.rng 'Ч' 'Ч', .rng 'ч' 'ч'], .cls false [.rng 'Е' 'Е', .rng 'е' 'е'], .cls false [.rng 'Р' 'Р', .rng 'р' 'р'], .cls false [.rng 'Е' 'Е', .rng 'е' 'е'], .cls false [.rng 'З' 'З', .rng 'з' 'з'], .lit [' '], .grp 1 (.number), .lit [' '], .cls false [.rng 'Д' 'Д', .rng 'д' 'д', .rng 'ᲁ' 'ᲁ']], [.lit ['i', 'n', ' '], .ref 1, .lit [' ', 'd', 'a', 'y']]),
    (.seqs [.cls false [.rng 'Ч' 'Ч', .rng 'ч' 'ч'], .cls false [.rng 'Е' 'Е', .rng 'е' 'е'], .cls false [.rng 'Р' 'Р', .rng 'р' 'р'], .cls false [.rng 'Е' 'Е', .rng 'е' 'е'], .cls false [.rng 'З' 'З', .rng 'з' 'з'], .lit [' '], .grp 1 (.number), .lit [' '], .cls false [.rng 'Ч' 'Ч', .rng 'ч' 'ч']], [.lit ['i', 'n', ' '], .ref 1, .lit [' ', 'h', 'o', 'u', 'r']])],
  rxCombined := some (.seqs [.grp 1 (.alts [.bos, .cls true [.letter, .mark, .digit], .lit ['_']]), .grp 2 (.alts [.seqs [.number, .lit [' '], .cls false [.rng 'С' 'С', .rng 'с' 'с', .rng 'ᲃ' 'ᲃ'], .cls false [.rng 'Е' 'Е', .rng 'е' 'е'], .cls false [.rng 'К' 'К', .rng 'к' 'к'], .cls false [.rng 'У' 'У', .rng 'у' 'у'], .cls false [.rng 'Н' 'Н', .rng 'н' 'н'], .cls false [.rng 'Д' 'Д', .rng 'д' 'д', .rng 'ᲁ' 'ᲁ'], .cls false [.rng 'У' 'У', .rng 'у' 'у'], .lit [' '], .cls false [.rng 'Н' 'Н', .rng 'н' 'н'], .cls false [.rng 'А' 'А', .rng 'а' 'а'], .cls false [.rng 'З' 'З', .rng 'з' 'з'], .cls false [.rng 'А' 'А', .rng 'а' 'а'], .cls false [.rng 'Д' 'Д', .rng 'д' 'д', .rng 'ᲁ' 'ᲁ']], .seqs [.number, .lit [' '], .cls false [.rng 'С' 'С', .rng 'с' 'с', .rng 'ᲃ' 'ᲃ'], .cls false [.rng 'Е' 'Е', .rng 'е' 'е'], .cls false [.rng 'К' 'К', .rng 'к' 'к'], .cls false [.rng 'У' 'У', .rng 'у' 'у'], .cls false [.rng 'Н' 'Н', .rng 'н' 'н'], .cls false [.rng 'Д' 'Д', .rng 'д' 'д', .rng 'ᲁ' 'ᲁ'], .cls false [.rng 'Ы' 'Ы', .rng 'ы' 'ы'], .lit [' '], .cls false [.rng 'Н' 'Н', .rng 'н' 'н'], .cls false [.rng 'А' 'А', .rng 'а' 'а'], .cls false [.rng 'З' 'З', .rng 'з' 'з'], .cls false [.rng 'А' 'А', .rng 'а' 'а'], .cls false [.rng 'Д' 'Д', .rng 'д' 'д', .rng 'ᲁ' 'ᲁ']], .seqs [.cls false [.rng 'Ч' 'Ч', .rng 'ч' 'ч'], .cls false [.rng 'Е' 'Е', .rng 'е' 'е'], .cls false [.rng 'Р' 'Р', .rng 'р' 'р'], .cls false [.rng 'Е' 'Е', .rng 'е' 'е'], .cls false [.rng 'З' 'З', .rng 'з' 'з'], .lit [' '], .number, .lit [' '], .cls false [.rng 'С' 'С', .rng 'с' 'с', .rng 'ᲃ' 'ᲃ'], .cls false [.rng 'Е' 'Е', .rng 'е' 'е'], .cls false [.rng 'К' 'К', .rng 'к' 'к'], .cls false [.rng 'У' 'У', .rng 'у' 'у'], .cls false [.rng 'Н' 'Н', .rng 'н' 'н'], .cls false [.rng 'Д' 'Д', .rng 'д' 'д', .rng 'ᲁ' 'ᲁ'], .cls false [.rng 'У' 'У', .rng 'у' 'у']], .seqs [.cls false [.rng 'Ч' 'Ч', .rng 'ч' 'ч'], .cls false [.rng 'Е' 'Е', .rng 'е' 'е'], .cls false [.rng 'Р' 'Р', .rng 'р' 'р'], .cls false [.rng 'Е' 'Е', .rng 'е' 'е'], .cls false [.rng 'З' 'З', .rng 'з' 'з'], .lit [' '], .number, .lit [' '], .cls false [.rng 'С' 'С', .rng 'с' 'с', .rng 'ᲃ' 'ᲃ'], .cls false [.rng 'Е' 'Е', .rng 'е' 'е'], .cls false [.rng 'К' 'К', .rng 'к' 'к'], .cls false [.rng 'У' 'У', .rng 'у' 'у'], .cls false [.rng 'Н' 'Н', .rng 'н' 'н'], .cls false [.rng 'Д' 'Д', .rng 'д' 'д', .rng 'ᲁ' 'ᲁ'], .cls false [.rng 'Ы' 'Ы', .rng 'ы' 'ы']], .seqs [.number, .lit [' '], .cls false [.rng 'М' 'М', .rng 'м' 'м'], .cls false [.rng 'Е' 'Е', .rng 'е' 'е'], .cls false [.rng 'С' 'С', .rng 'с' 'с', .rng 'ᲃ' 'ᲃ'], .cls false [.rng 'Я' 'Я', .rng 'я' 'я'], .cls false [.rng 'Ц' 'Ц', .rng 'ц' 'ц'], .cls false [.rng 'А' 'А', .rng 'а' 'а'], .lit [' '], .cls false [.rng 'Н' 'Н', .rng 'н' 'н'], .cls false [.rng 'А' 'А', .rng 'а' 'а'], .cls false [.rng 'З' 'З', .rng 'з' 'з'], .cls false [.rng 'А' 'А', .rng 'а' 'а'], .cls false [.rng 'Д' 'Д', .rng 'д' 'д', .rng 'ᲁ' 'ᲁ']], .seqs [.number, .lit [' '], .cls false [.rng 'М' 'М', .rng 'м' 'м'], .cls false [.rng 'И' 'И', .rng 'и' 'и'], .cls false [.rng 'Н' 'Н', .rng 'н' 'н'], .cls false [.rng 'У' 'У', .rng 'у' 'у'], .cls false [.rng 'Т' 'Т', .rng 'т' 'т', .rng 'ᲄ' 'ᲄ', .rng 'ᲅ' 'ᲅ'], .cls false [.rng 'У' 'У', .rng 'у' 'у'], .lit [' '], .cls false [.rng 'Н' 'Н', .rng 'н' 'н'], .cls false [.rng 'А' 'А', .rng 'а' 'а'], .cls false [.rng 'З' 'З', .rng 'з' 'з'], .cls false [.rng 'А' 'А', .rng 'а' 'а'], .cls false [.rng 'Д' 'Д', .rng 'д' 'д', .rng 'ᲁ' 'ᲁ']], .seqs [.number, .lit [' '], .cls false [.rng 'М' 'М', .rng 'м' 'м'], .cls false [.rng 'И' 'И', .rng 'и' 'и'], .cls false [.rng 'Н' 'Н', .rng 'н' 'н'], .cls false [.rng 'У' 'У', .rng 'у' 'у'], .cls false [.rng 'Т' 'Т', .rng 'т' 'т', .rng 'ᲄ' 'ᲄ', .rng 'ᲅ' 'ᲅ'], .cls false [.rng 'Ы' 'Ы', .rng 'ы' 'ы'], .lit [' '], .cls false [.rng 'Н' 'Н', .rng 'н' 'н'], .cls false [.rng 'А' 'А', .rng 'а' 'а'], .cls false [.rng 'З' 'З', .rng 'з' 'з'], .cls false [.rng 'А' 'А', .rng 'а' 'а'], .cls false [.rng 'Д' 'Д', .rng 'д' 'д', .rng 'ᲁ' 'ᲁ']], .seqs [.number, .lit [' '], .cls false [.rng 'Н' 'Н', .rng 'н' 'н'], .cls false [.rng 'Е' 'Е', .rng 'е' 'е'], .cls false [.rng 'Д' 'Д', .rng 'д' 'д', .rng 'ᲁ' 'ᲁ'], .cls false [.rng 'Е' 'Е', .rng 'е' 'е'], .cls false [.rng 'Л' 'Л', .rng 'л' 'л'], .cls false [.rng 'И' 'И', .rng 'и' 'и'], .lit [' '], .cls false [.rng 'Н' 'Н', .rng 'н' 'н'], .cls false [.rng 'А' 'А', .rng 'а' 'а'], .cls false [.rng 'З' 'З', .rng 'з' 'з'], .cls false [.rng 'А' 'А', .rng 'а' 'а'], .cls false [.rng 'Д' 'Д', .rng 'д' 'д', .rng 'ᲁ' 'ᲁ']], .seqs [.number, .lit [' '], .cls false [.rng 'Н' 'Н', .rng 'н' 'н'], .cls false [.rng 'Е' 'Е', .rng 'е' 'е'], .cls false [.rng 'Д' 'Д', .rng 'д' 'д', .rng 'ᲁ' 'ᲁ'], .cls false [.rng 'Е' 'Е', .rng 'е' 'е'], .cls false [.rng 'Л' 'Л', .rng 'л' 'л'], .cls false [.rng 'Ю' 'Ю', .rng 'ю' 'ю'], .lit [' '], .cls false [.rng 'Н' 'Н', .rng 'н' 'н'], .cls false [.rng 'А' 'А', .rng 'а' 'а'], .cls false [.rng 'З' 'З', .rng 'з' 'з'], .cls false [.rng 'А' 'А', .rng 'а' 'а'], .cls false [.rng 'Д' 'Д', .rng 'д' 'д', .rng 'ᲁ' 'ᲁ']], .seqs [.cls false [.rng 'Ч' 'Ч', .rng 'ч' 'ч'], .cls false [.rng 'Е' 'Е', .rng 'е' 'е'], .cls false [.rng 'Р' 'Р', .rng 'р' 'р'], .cls false [.rng 'Е' 'Е', .rng 'е' 'е'], .cls false [.rng 'З' 'З', .rng 'з' 'з'], .lit [' '], .number, .lit [' '], .cls false [.rng 'М' 'М', .rng 'м' 'м'], .cls false [.rng 'Е' 'Е', .rng 'е' 'е'], .cls false [.rng 'С' 'С', .rng 'с' 'с', .rng 'ᲃ' 'ᲃ'], .cls false [.rng 'Я' 'Я', .rng 'я' 'я'], .cls false [.rng 'Ц' 'Ц', .rng 'ц' 'ц'], .cls false [.rng 'А' 'А', .rng 'а' 'а']], .seqs [.cls false [.rng 'Ч' 'Ч', .rng 'ч' 'ч'], .cls false [.rng 'Е' 'Е', .rng 'е' 'е'], .cls false [.rng 'Р' 'Р', .rng 'р' 'р'], .cls false [.rng 'Е' 'Е', .rng 'е' 'е'], .cls false [.rng 'З' 'З', .rng 'з' 'з'], .lit [' '], .number, .lit [' '], .cls false [.rng 'М' 'М', .rng 'м' 'м'], .cls false [.rng 'И' 'И', .rng 'и' 'и'], .cls false [.rng 'Н' 'Н', .rng 'н' 'н'], .cls false [.rng 'У' 'У', .rng 'у' 'у'], .cls false [.rng 'Т' 'Т', .rng 'т' 'т', .rng 'ᲄ' 'ᲄ', .rng 'ᲅ' 'ᲅ'], .cls false [.rng 'У' 'У', .rng 'у' 'у']], .seqs [.cls false [.rng 'Ч' 'Ч', .rng 'ч' 'ч'], .cls false [.rng 'Е' 'Е', .rng 'е' 'е'], .cls false [.rng 'Р' 'Р', .rng 'р' 'р'], .cls false [.rng 'Е' 'Е', .rng 'е' 'е'], .cls false [.rng 'З' 'З', .rng 'з' 'з'], .lit [' '], .number, .lit [' '], .cls false [.rng 'М' 'М', .rng 'м' 'м'], .cls false [.rng 'И' 'И', .rng 'и' 'и'], .cls false [.rng 'Н' 'Н', .rng 'н' 'н'], .cls false [.rng 'У' 'У', .rng 'у' 'у'], .cls false [.rng 'Т' 'Т', .rng 'т' 'т', .rng 'ᲄ' 'ᲄ', .rng 'ᲅ' 'ᲅ'], .cls false [.rng 'Ы' 'Ы', .rng 'ы' 'ы']], .seqs [.cls false [.rng 'Ч' 'Ч', .rng 'ч' 'ч'], .cls false [.rng 'Е' 'Е', .rng 'е' 'е'], .cls false [.rng 'Р' 'Р', .rng 'р' 'р'], .cls false [.rng 'Е' 'Е', .rng 'е' 'е'], .cls false [.rng 'З' 'З', .rng 'з' 'з'], .lit [' '], .number, .lit [' '], .cls false [.rng 'Н' 'Н', .rng 'н' 'н'], .cls false [.rng 'Е' 'Е', .rng 'е' 'е'], .cls false [.rng 'Д' 'Д', .rng 'д' 'д', .rng 'ᲁ' 'ᲁ'], .cls false [.rng 'Е' 'Е', .rng 'е' 'е'], .cls false [.rng 'Л' 'Л', .rng 'л' 'л'], .cls false [.rng 'И' 'И', .rng 'и' 'и']], .seqs [.cls false [.rng 'Ч' 'Ч', .rng 'ч' 'ч'], .cls false [.rng 'Е' 'Е', .rng 'е' 'е'], .cls false [.rng 'Р' 'Р', .rng 'р' 'р'], .cls false [.rng 'Е' 'Е', .rng 'е' 'е'], .cls false [.rng 'З' 'З', .rng 'з' 'з'], .lit [' '], .number, .lit [' '], .cls false [.rng 'Н' 'Н', .rng 'н' 'н'], .cls false [.rng 'Е' 'Е', .rng 'е' 'е'], .cls false [.rng 'Д' 'Д', .rng 'д' 'д', .rng 'ᲁ' 'ᲁ'], .cls false [.rng 'Е' 'Е', .rng 'е' 'е'], .cls false [.rng 'Л' 'Л', .rng 'л' 'л'], .cls false [.rng 'Ю' 'Ю', .rng 'ю' 'ю']], .seqs [.number, .lit [' '], .cls false [.rng 'М' 'М', .rng 'м' 'м'], .cls false [.rng 'Е' 'Е', .rng 'е' 'е'], .cls false [.rng 'С' 'С', .rng 'с' 'с', .rng 'ᲃ' 'ᲃ'], .cls false [.rng 'Я' 'Я', .rng 'я' 'я'], .cls false [.rng 'Ц' 'Ц', .rng 'ц' 'ц'], .lit [' '], .cls false [.rng 'Н' 'Н', .rng 'н' 'н'], .cls false [.rng 'А' 'А', .rng 'а' 'а'], .cls false [.rng 'З' 'З', .rng 'з' 'з'], .cls false [.rng 'А' 'А', .rng 'а' 'а'], .cls false [.rng 'Д' 'Д', .rng 'д' 'д', .rng 'ᲁ' 'ᲁ']], .seqs [.cls false [.rng 'Ч' 'Ч', .rng 'ч' 'ч'], .cls false [.rng 'Е' 'Е', .rng 'е' 'е'], .cls false [.rng 'Р' 'Р', .rng 'р' 'р'], .cls false [.rng 'Е' 'Е', .rng 'е' 'е'], .cls false [.rng 'З' 'З', .rng 'з' 'з'], .lit [' '], .number, .lit [' '], .cls false [.rng 'М' 'М', .rng 'м' 'м'], .cls false [.rng 'Е' 'Е', .rng 'е' 'е'], .cls false [.rng 'С' 'С', .rng 'с' 'с', .rng 'ᲃ' 'ᲃ'], .cls false [.rng 'Я' 'Я', .rng 'я' 'я'], .cls false [.rng 'Ц' 'Ц', .rng 'ц' 'ц']], .seqs [.number, .lit [' '], .cls false [.rng 'Г' 'Г', .rng 'г' 'г'], .cls false [.rng 'О' 'О', .rng 'о' 'о', .rng 'ᲂ' 'ᲂ'], .cls false [.rng 'Д' 'Д', .rng 'д' 'д', .rng 'ᲁ' 'ᲁ'], .cls false [.rng 'А' 'А', .rng 'а' 'а'], .lit [' '], .cls false [.rng 'Н' 'Н', .rng 'н' 'н'], .cls false [.rng 'А' 'А', .rng 'а' 'а'], .cls false [.rng 'З' 'З', .rng 'з' 'з'], .cls false [.rng 'А' 'А', .rng 'а' 'а'], .cls false [.rng 'Д' 'Д', .rng 'д' 'д', .rng 'ᲁ' 'ᲁ']], .seqs [.number, .lit [' '], .cls false [.rng 'Д' 'Д', .rng 'д' 'д', .rng 'ᲁ' 'ᲁ'], .cls false [.rng 'Е' 'Е', .rng 'е' 'е'], .cls false [.rng 'Н' 'Н', .rng 'н' 'н'], .cls false [.rng 'Ь' 'Ь', .rng 'ь' 'ь'], .lit [' '], .cls false [.rng 'Н' 'Н', .rng 'н' 'н'], .cls false [.rng 'А' 'А', .rng 'а' 'а'], .cls false [.rng 'З' 'З', .rng 'з' 'з'], .cls false [.rng 'А' 'А', .rng 'а' 'а'], .cls false [.rng 'Д' 'Д', .rng 'д' 'д', .rng 'ᲁ' 'ᲁ']], .seqs [.number, .lit [' '], .cls false [.rng 'Ч' 'Ч', .rng 'ч' 'ч'], .cls false [.rng 'А' 'А', .rng 'а' 'а'], .cls false [.rng 'С' 'С', .rng 'с' 'с', .rng 'ᲃ' 'ᲃ'], .cls false [.rng 'А' 'А', .rng 'а' 'а'], .lit [' '], .cls false [.rng 'Н' 'Н', .rng 'н' 'н'], .cls false [.rng 'А' 'А', .rng 'а' 'а'], .cls false [.rng 'З' 'З', .rng 'з' 'з'], .cls false [.rng 'А' 'А', .rng 'а' 'а'], .cls false [.rng 'Д' 'Д', .rng 'д' 'д', .rng 'ᲁ' 'ᲁ']], .seqs [.cls false [.rng 'Ч' 'Ч', .rng 'ч' 'ч'], .cls false [.rng 'Е' 'Е', .rng 'е' 'е'], .cls false [.rng 'Р' 'Р', .rng 'р' 'р'], .cls false [.rng 'Е' 'Е', .rng 'е' 'е'], .cls false [.rng 'З' 'З', .rng 'з' 'з'], .lit [' '], .number, .lit [' '], .cls false [.rng 'Г' 'Г', .rng 'г' 'г'], .cls false [.rng 'О' 'О', .rng 'о' 'о', .rng 'ᲂ' 'ᲂ'], .cls false [.rng 'Д' 'Д', .rng 'д' 'д', .rng 'ᲁ' 'ᲁ'], .cls false [.rng 'А' 'А', .rng 'а' 'а']], .seqs [.cls false [.rng 'Ч' 'Ч', .rng 'ч' 'ч'], .cls false [.rng 'Е' 'Е', .rng 'е' 'е'], .cls false [.rng 'Р' 'Р', .rng 'р' 'р'], .cls false [.rng 'Е' 'Е', .rng 'е' 'е'], .cls false [.rng 'З' 'З', .rng 'з' 'з'], .lit [' '], .number, .lit [' '], .cls false [.rng 'Д' 'Д', .rng 'д' 'д', .rng 'ᲁ' 'ᲁ'], .cls false [.rng 'Е' 'Е', .rng 'е' 'е'], .cls false [.rng 'Н' 'Н', .rng 'н' 'н'], .cls false [.rng 'Ь' 'Ь', .rng 'ь' 'ь']], .seqs [.cls false [.rng 'Ч' 'Ч', .rng 'ч' 'ч'], .cls false [.rng 'Е' 'Е', .rng 'е' 'е'], .cls false [.rng 'Р' 'Р', .rng 'р' 'р'], .cls false [.rng 'Е' 'Е', .rng 'е' 'е'], .cls false [.rng 'З' 'З', .rng 'з' 'з'], .lit [' '], .number, .lit [' '], .cls false [.rng 'Ч' 'Ч', .rng 'ч' 'ч'], .cls false [.rng 'А' 'А', .rng 'а' 'а'], .cls false [.rng 'С' 'С', .rng 'с' 'с', .rng 'ᲃ' 'ᲃ'], .cls false [.rng 'А' 'А', .rng 'а' 'а']], .seqs [.number, .lit [' '], .cls false [.rng 'Г' 'Г', .rng 'г' 'г'], .cls false [.rng 'О' 'О', .rng 'о' 'о', .rng 'ᲂ' 'ᲂ'], .cls false [.rng 'Д' 'Д', .rng 'д' 'д', .rng 'ᲁ' 'ᲁ'], .lit [' '], .cls false [.rng 'Н' 'Н', .rng 'н' 'н'], .cls false [.rng 'А' 'А', .rng 'а' 'а'], .cls false [.rng 'З' 'З', .rng 'з' 'з'], .cls false [.rng 'А' 'А', .rng 'а' 'а'], .cls false [.rng 'Д' 'Д', .rng 'д' 'д', .rng 'ᲁ' 'ᲁ']], .seqs [.number, .lit [' '], .cls false [.rng 'Д' 'Д', .rng 'д' 'д', .rng 'ᲁ' 'ᲁ'], .cls false [.rng 'Н' 'Н', .rng 'н' 'н'], .cls false [.rng 'Я' 'Я', .rng 'я' 'я'], .lit [' '], .cls false [.rng 'Н' 'Н', .rng 'н' 'н'], .cls false [.rng 'А' 'А', .rng 'а' 'а'], .cls false [.rng 'З' 'З', .rng 'з' 'з'], .cls false [.rng 'А' 'А', .rng 'а' 'а'], .cls false [.rng 'Д' 'Д', .rng 'д' 'д', .rng 'ᲁ' 'ᲁ']], .seqs [.number, .lit [' '], .cls false [.rng 'М' 'М', .rng 'м' 'м'], .cls false [.rng 'Е' 'Е', .rng 'е' 'е'], .cls false [.rng 'С' 'С', .rng 'с' 'с', .rng 'ᲃ' 'ᲃ'], .lit [' '], .cls false [.rng 'Н' 'Н', .rng 'н' 'н'], .cls false [.rng 'А' 'А', .rng 'а' 'а'], .cls false [.rng 'З' 'З', .rng 'з' 'з'], .cls false [.rng 'А' 'А', .rng 'а' 'а'], .cls false [.rng 'Д' 'Д', .rng 'д' 'д', .rng 'ᲁ' 'ᲁ']], .seqs [.number, .lit [' '], .cls false [.rng 'М' 'М', .rng 'м' 'м'], .cls false [.rng 'И' 'И', .rng 'и' 'и'], .cls false [.rng 'Н' 'Н', .rng 'н' 'н'], .lit [' '], .cls false [.rng 'Н' 'Н', .rng 'н' 'н'], .cls false [.rng 'А' 'А', .rng 'а' 'а'], .cls false [.rng 'З' 'З', .rng 'з' 'з'], .cls false [.rng 'А' 'А', .rng 'а' 'а'], .cls false [.rng 'Д' 'Д', .rng 'д' 'д', .rng 'ᲁ' 'ᲁ']], .seqs [.number, .lit [' '], .cls false [.rng 'Н' 'Н', .rng 'н' 'н'], .cls false [.rng 'Е' 'Е', .rng 'е' 'е'], .cls false [.rng 'Д' 'Д', .rng 'д' 'д', .rng 'ᲁ' 'ᲁ'], .lit [' '], .cls false [.rng 'Н' 'Н', .rng 'н' 'н'], .cls false [.rng 'А' 'А', .rng 'а' 'а'], .cls false [.rng 'З' 'З', .rng 'з' 'з'], .cls false [.rng 'А' 'А', .rng 'а' 'а'], .cls false [.rng 'Д' 'Д', .rng 'д' 'д', .rng 'ᲁ' 'ᲁ']], .seqs [.number, .lit [' '], .cls false [.rng 'С' 'С', .rng 'с' 'с', .rng 'ᲃ' 'ᲃ'], .cls false [.rng 'Е' 'Е', .rng 'е' 'е'], .cls false [.rng 'К' 'К', .rng 'к' 'к'], .lit [' '], .cls false [.rng 'Н' 'Н', .rng 'н' 'н'], .cls false [.rng 'А' 'А', .rng 'а' 'а'], .cls false [.rng 'З' 'З', .rng 'з' 'з'], .cls false [.rng 'А' 'А', .rng 'а' 'а'], .cls false [.rng 'Д' 'Д', .rng 'д' 'д', .rng 'ᲁ' 'ᲁ']], .seqs [.number, .lit [' '], .cls false [.rng 'Ч' 'Ч', .rng 'ч' 'ч'], .cls false [.rng 'А' 'А', .rng 'а' 'а'], .cls false [.rng 'С' 'С', .rng 'с' 'с', .rng 'ᲃ' 'ᲃ'], .lit [' '], .cls false [.rng 'Н' 'Н', .rng 'н' 'н'], .cls false [.rng 'А' 'А', .rng 'а' 'а'], .cls false [.rng 'З' 'З', .rng 'з' 'з'], .cls false [.rng 'А' 'А', .rng 'а' 'а'], .cls false [.rng 'Д' 'Д', .rng 'д' 'д', .rng 'ᲁ' 'ᲁ']], .seqs [.cls false [.rng 'Ч' 'Ч', .rng 'ч' 'ч'], .cls false [.rng 'Е' 'Е', .rng 'е' 'е'], .cls false [.rng 'Р' 'Р', .rng 'р' 'р'], .cls false [.rng 'Е' 'Е', .rng 'е' 'е'], .cls false [.rng 'З' 'З', .rng 'з' 'з'], .lit [' '], .number, .lit [' '], .cls false [.rng 'Г' 'Г', .rng 'г' 'г'], .cls false [.rng 'О' 'О', .rng 'о' 'о', .rng 'ᲂ' 'ᲂ'], .cls false [.rng 'Д' 'Д', .rng 'д' 'д', .rng 'ᲁ' 'ᲁ']], .seqs [.cls false [.rng 'Ч' 'Ч', .rng 'ч' 'ч'], .cls false [.rng 'Е' 'Е', .rng 'е' 'е'], .cls false [.rng 'Р' 'Р', .rng 'р' 'р'], .cls false [.rng 'Е' 'Е', .rng 'е' 'е'], .cls false [.rng 'З' 'З', .rng 'з' 'з'], .lit [' '], .number, .lit [' '], .cls false [.rng 'Д' 'Д', .rng 'д' 'д', .rng 'ᲁ' 'ᲁ'], .cls false [.rng 'Н' 'Н', .rng 'н' 'н'], .cls false [.rng 'Я' 'Я', .rng 'я' 'я']], .seqs [.cls false [.rng 'Ч' 'Ч', .rng 'ч' 'ч'], .cls false [.rng 'Е' 'Е', .rng 'е' 'е'], .cls false [.rng 'Р' 'Р', .rng 'р' 'р'], .cls false [.rng 'Е' 'Е', .rng 'е' 'е'], .cls false [.rng 'З' 'З', .rng 'з' 'з'], .lit [' '], .number, .lit [' '], .cls false [.rng 'М' 'М', .rng 'м' 'м'], .cls false [.rng 'Е' 'Е', .rng 'е' 'е'], .cls false [.rng 'С' 'С', .rng 'с' 'с', .rng 'ᲃ' 'ᲃ']], .seqs [.cls false [.rng 'Ч' 'Ч', .rng 'ч' 'ч'], .cls false [.rng 'Е' 'Е', .rng 'е' 'е'], .cls false [.rng 'Р' 'Р', .rng 'р' 'р'], .cls false [.rng 'Е' 'Е', .rng 'е' 'е'], .cls false [.rng 'З' 'З', .rng 'з' 'з'], .lit [' '], .number, .lit [' '], .cls false [.rng 'М' 'М', .rng 'м' 'м'], .cls false [.rng 'И' 'И', .rng 'и' 'и'], .cls false [.rng 'Н' 'Н', .rng 'н' 'н']], .seqs [.cls false [.rng 'Ч' 'Ч', .rng 'ч' 'ч'], .cls false [.rng 'Е' 'Е', .rng 'е' 'е'], .cls false [.rng 'Р' 'Р', .rng 'р' 'р'], .cls false [.rng 'Е' 'Е', .rng 'е' 'е'], .cls false [.rng 'З' 'З', .rng 'з' 'з'], .lit [' '], .number, .lit [' '], .cls false [.rng 'Н' 'Н', .rng 'н' 'н'], .cls false [.rng 'Е' 'Е', .rng 'е' 'е'], .cls false [.rng 'Д' 'Д', .rng 'д' 'д', .rng 'ᲁ' 'ᲁ']], .seqs [.cls false [.rng 'Ч' 'Ч', .rng 'ч' 'ч'], .cls false [.rng 'Е' 'Е', .rng 'е' 'е'], .cls false [.rng 'Р' 'Р', .rng 'р' 'р'], .cls false [.rng 'Е' 'Е', .rng 'е' 'е'], .cls false [.rng 'З' 'З', .rng 'з' 'з'], .lit [' '], .number, .lit [' '], .cls false [.rng 'С' 'С', .rng 'с' 'с', .rng 'ᲃ' 'ᲃ'], .cls false [.rng 'Е' 'Е', .rng 'е' 'е'], .cls false [.rng 'К' 'К', .rng 'к' 'к']], .seqs [.cls false [.rng 'Ч' 'Ч', .rng 'ч' 'ч'], .cls false [.rng 'Е' 'Е', .rng 'е' 'е'], .cls false [.rng 'Р' 'Р', .rng 'р' 'р'], .cls false [.rng 'Е' 'Е', .rng 'е' 'е'], .cls false [.rng 'З' 'З', .rng 'з' 'з'], .lit [' '], .number, .lit [' '], .cls false [.rng 'Ч' 'Ч', .rng 'ч' 'ч'], .cls false [.rng 'А' 'А', .rng 'а' 'а'], .cls false [.rng 'С' 'С', .rng 'с' 'с', .rng 'ᲃ' 'ᲃ']], .seqs [.number, .lit [' '], .cls false [.rng 'Д' 'Д', .rng 'д' 'д', .rng 'ᲁ' 'ᲁ'], .cls false [.rng 'Н' 'Н', .rng 'н' 'н'], .lit [' '], .cls false [.rng 'Н' 'Н', .rng 'н' 'н'], .cls false [.rng 'А' 'А', .rng 'а' 'а'], .cls false [.rng 'З' 'З', .rng 'з' 'з'], .cls false [.rng 'А' 'А', .rng 'а' 'а'], .cls false [.rng 'Д' 'Д', .rng 'д' 'д', .rng 'ᲁ' 'ᲁ']], .seqs [.cls false [.rng 'Ч' 'Ч', .rng 'ч' 'ч'], .cls false [.rng 'Е' 'Е', .rng 'е' 'е'], .cls false [.rng 'Р' 'Р', .rng 'р' 'р'], .cls false [.rng 'Е' 'Е', .rng 'е' 'е'], .cls false [.rng 'З' 'З', .rng 'з' 'з'], .lit [' '], .number, .lit [' '], .cls false [.rng 'Д' 'Д', .rng 'д' 'д', .rng 'ᲁ' 'ᲁ'], .cls false [.rng 'Н' 'Н', .rng 'н' 'н']], .seqs [.number, .lit [' '], .cls false [.rng 'Г' 'Г', .rng 'г' 'г'], .lit [' '], .cls false [.rng 'Н' 'Н', .rng 'н' 'н'], .cls false [.rng 'А' 'А', .rng 'а' 'а'], .cls false [.rng 'З' 'З', .rng 'з' 'з'], .cls false [.rng 'А' 'А', .rng 'а' 'а'], .cls false [.rng 'Д' 'Д', .rng 'д' 'д', .rng 'ᲁ' 'ᲁ']], .seqs [.number, .lit [' '], .cls false [.rng 'Д' 'Д', .rng 'д' 'д', .rng 'ᲁ' 'ᲁ'], .lit [' '], .cls false [.rng 'Н' 'Н', .rng 'н' 'н'], .cls false [.rng 'А' 'А', .rng 'а' 'а'], .cls false [.rng 'З' 'З', .rng 'з' 'з'], .cls false [.rng 'А' 'А', .rng 'а' 'а'], .cls false [.rng 'Д' 'Д', .rng 'д' 'д', .rng 'ᲁ' 'ᲁ']], .seqs [.number, .lit [' '], .cls false [.rng 'Ч' 'Ч', .rng 'ч' 'ч'], .lit [' '], .cls false [.rng 'Н' 'Н', .rng 'н' 'н'], .cls false [.rng 'А' 'А', .rng 'а' 'а'], .cls false [.rng 'З' 'З', .rng 'з' 'з'], .cls false [.rng 'А' 'А', .rng 'а' 'а'], .cls false [.rng 'Д' 'Д', .rng 'д' 'д', .rng 'ᲁ' 'ᲁ']], .seqs [.cls false [.rng 'Ч' 'Ч', .rng 'ч' 'ч'], .cls false [.rng 'Е' 'Е', .rng 'е' 'е'], .cls false [.rng 'Р' 'Р', .rng 'р' 'р'], .cls false [.rng 'Е' 'Е', .rng 'е' 'е'], .cls false [.rng 'З' 'З', .rng 'з' 'з'], .lit [' '], .number, .lit [' '], .cls false [.rng 'Г' 'Г', .rng 'г' 'г']], .seqs [.cls false [.rng 'Ч' 'Ч', .rng 'ч' 'ч'], .cls false [.rng 'Е' 'Е', .rng 'е' 'е'], .cls false [.rng 'Р' 'Р', .rng 'р' 'р'], .cls false [.rng 'Е' 'Е', .rng 'е' 'е'], .cls false [.rng 'З' 'З', .rng 'з' 'з'], .lit [' '], .number, .lit [' '], .cls false [.rng 'Д' 'Д', .rng 'д' 'д', .rng 'ᲁ' 'ᲁ']], .seqs [.cls false [.rng 'Ч' 'Ч', .rng 'ч' 'ч'], .cls false [.rng 'Е' 'Е', .rng 'е' 'е'], .cls false [.rng 'Р' 'Р', .rng 'р' 'р'], .cls false [.rng 'Е' 'Е', .rng 'е' 'е'], .cls false [.rng 'З' 'З', .rng 'з' 'з'], .lit [' '], .number, .lit [' '], .cls false [.rng 'Ч' 'Ч', .rng 'ч' 'ч']]]), .grp 3 (.alts [.eos, .cls true [.letter, .mark, .digit], .lit ['_']])], 3),
  rxExact := some (.seqs [.bos, .grp 1 (.alts [.seqs [.number, .lit [' '], .cls false [.rng 'С' 'С', .rng 'с' 'с', .rng 'ᲃ' 'ᲃ'], .cls false [.rng 'Е' 'Е', .rng 'е' 'е'], .cls false [.rng 'К' 'К', .rng 'к' 'к'], .cls false [.rng 'У' 'У', .rng 'у' 'у'], .cls false [.rng 'Н' 'Н', .rng 'н' 'н'], .cls false [.rng 'Д' 'Д', .rng 'д' 'д', .rng 'ᲁ' 'ᲁ'], .cls false [.rng 'У' 'У', .rng 'у' 'у'], .lit [' '], .cls false [.rng 'Н' 'Н', .rng 'н' 'н'], .cls false [.rng 'А' 'А', .rng 'а' 'а'], .cls false [.rng 'З' 'З', .rng 'з' 'з'], .cls false [.rng 'А' 'А', .rng 'а' 'а'], .cls false [.rng 'Д' 'Д', .rng 'д' 'д', .rng 'ᲁ' 'ᲁ']], .seqs [.number, .lit [' '], .cls false [.rng 'С' 'С', .rng 'с' 'с', .rng 'ᲃ' 'ᲃ'], .cls false [.rng 'Е' 'Е', .rng 'е' 'е'], .cls false [.rng 'К' 'К', .rng 'к' 'к'], .cls false [.rng 'У' 'У', .rng 'у' 'у'], .cls false [.rng 'Н' 'Н', .rng 'н' 'н'], .cls false [.rng 'Д' 'Д', .rng 'д' 'д', .rng 'ᲁ' 'ᲁ'], .cls false [.rng 'Ы' 'Ы', .rng 'ы' 'ы'], .lit [' '], .cls false [.rng 'Н' 'Н', .rng 'н' 'н'], .cls false [.rng 'А' 'А', .rng 'а' 'а'], .cls false [.rng 'З' 'З', .rng 'з' 'з'], .cls false [.rng 'А' 'А', .rng 'а' 'а'], .cls false [.rng 'Д' 'Д', .rng 'д' 'д', .rng 'ᲁ' 'ᲁ']], .seqs [.cls false [.rng 'Ч' 'Ч', .rng 'ч' 'ч'], .cls false [.rng 'Е' 'Е', .rng 'е' 'е'], .cls false [.rng 'Р' 'Р', .rng 'р' 'р'], .cls false [.rng 'Е' 'Е', .rng 'е' 'е'], .cls false [.rng 'З' 'З', .rng 'з' 'з'], .lit [' '], .number, .lit [' '], .cls false [.rng 'С' 'С', .rng 'с' 'с', .rng 'ᲃ' 'ᲃ'], .cls false [.rng 'Е' 'Е', .rng 'е' 'е'], .cls false [.rng 'К' 'К', .rng 'к' 'к'], .cls false [.rng 'У' 'У', .rng 'у' 'у'], .cls false [.rng 'Н' 'Н', .rng 'н' 'н'], .cls false [.rng 'Д' 'Д', .rng 'д' 'д', .rng 'ᲁ' 'ᲁ'], .cls false [.rng 'У' 'У', .rng 'у' 'у']], .seqs [.cls false [.rng 'Ч' 'Ч', .rng 'ч' 'ч'], .cls false [.rng 'Е' 'Е', .rng 'е' 'е'], .cls false [.rng 'Р' 'Р', .rng 'р' 'р'], .cls false [.rng 'Е' 'Е', .rng 'е' 'е'], .cls false [.rng 'З' 'З', .rng 'з' 'з'], .lit [' '], .number, .lit [' '], .cls false [.rng 'С' 'С', .rng 'с' 'с', .rng 'ᲃ' 'ᲃ'], .cls false [.rng 'Е' 'Е', .rng 'е' 'е'], .cls false [.rng 'К' 'К', .rng 'к' 'к'], .cls false [.rng 'У' 'У', .rng 'у' 'у'], .cls false [.rng 'Н' 'Н', .rng 'н' 'н'], .cls false [.rng 'Д' 'Д', .rng 'д' 'д', .rng 'ᲁ' 'ᲁ'], .cls false [.rng 'Ы' 'Ы', .rng 'ы' 'ы']], .seqs [.number, .lit [' '], .cls false [.rng 'М' 'М', .rng 'м' 'м'], .cls false [.rng 'Е' 'Е', .rng 'е' 'е'], .cls false [.rng 'С' 'С', .rng 'с' 'с', .rng 'ᲃ' 'ᲃ'], .cls false [.rng 'Я' 'Я', .rng 'я' 'я'], .cls false [.rng 'Ц' 'Ц', .rng 'ц' 'ц'], .cls false [.rng 'А' 'А', .rng 'а' 'а'], .lit [' '], .cls false [.rng 'Н' 'Н', .rng 'н' 'н'], .cls false [.rng 'А' 'А', .rng 'а' 'а'], .cls false [.rng 'З' 'З', .rng 'з' 'з'], .cls false [.rng 'А' 'А', .rng 'а' 'а'], .cls false [.rng 'Д' 'Д', .rng 'д' 'д', .rng 'ᲁ' 'ᲁ']], .seqs [.number, .lit [' '], .cls false [.rng 'М' 'М', .rng 'м' 'м'], .cls false [.rng 'И' 'И', .rng 'и' 'и'], .cls false [.rng 'Н' 'Н', .rng 'н' 'н'], .cls false [.rng 'У' 'У', .rng 'у' 'у'], .cls false [.rng 'Т' 'Т', .rng 'т' 'т', .rng 'ᲄ' 'ᲄ', .rng 'ᲅ' 'ᲅ'], .cls false [.rng 'У' 'У', .rng 'у' 'у'], .lit [' '], .cls false [.rng 'Н' 'Н', .rng 'н' 'н'], .cls false [.rng 'А' 'А', .rng 'а' 'а'], .cls false [.rng 'З' 'З', .rng 'з' 'з'], .cls false [.rng 'А' 'А', .rng 'а' 'а'], .cls false [.rng 'Д' 'Д', .rng 'д' 'д', .rng 'ᲁ' 'ᲁ']], .seqs [.number, .lit [' '], .cls false [.rng 'М' 'М', .rng 'м' 'м'], .cls false [.rng 'И' 'И', .rng 'и' 'и'], .cls false [.rng 'Н' 'Н', .rng 'н' 'н'], .cls false [.rng 'У' 'У', .rng 'у' 'у'], .cls false [.rng 'Т' 'Т', .rng 'т' 'т', .rng 'ᲄ' 'ᲄ', .rng 'ᲅ' 'ᲅ'], .cls false [.rng 'Ы' 'Ы', .rng 'ы' 'ы'], .lit [' '], .cls false [.rng 'Н' 'Н', .rng 'н' 'н'], .cls false [.rng 'А' 'А', .rng 'а' 'а'], .cls false [.rng 'З' 'З', .rng 'з' 'з'], .cls false [.rng 'А' 'А', .rng 'а' 'а'], .cls false [.rng 'Д' 'Д', .rng 'д' 'д', .rng 'ᲁ' 'ᲁ']], .seqs [.number, .lit [' '], .cls false [.rng 'Н' 'Н', .rng 'н' 'н'], .cls false [.rng 'Е' 'Е', .rng 'е' 'е'], .cls false [.rng 'Д' 'Д', .rng 'д' 'д', .rng 'ᲁ' 'ᲁ'], .cls false [.rng 'Е' 'Е', .rng 'е' 'е'], .cls false [.rng 'Л' 'Л', .rng 'л' 'л'], .cls false [.rng 'И' 'И', .rng 'и' 'и'], .lit [' '], .cls false [.rng 'Н' 'Н', .rng 'н' 'н'], .cls false [.rng 'А' 'А', .rng 'а' 'а'], .cls false [.rng 'З' 'З', .rng 'з' 'з'], .cls false [.rng 'А' 'А', .rng 'а' 'а'], .cls false [.rng 'Д' 'Д', .rng 'д' 'д', .rng 'ᲁ' 'ᲁ']], .seqs [.number, .lit [' '], .cls false [.rng 'Н' 'Н', .rng 'н' 'н'], .cls false [.rng 'Е' 'Е', .rng 'е' 'е'], .cls false [.rng 'Д' 'Д', .rng 'д' 'д', .rng 'ᲁ' 'ᲁ'], .cls false [.rng 'Е' 'Е', .rng 'е' 'е'], .cls false [.rng 'Л' 'Л', .rng 'л' 'л'], .cls false [.rng 'Ю' 'Ю', .rng 'ю' 'ю'], .lit [' '], .cls false [.rng 'Н' 'Н', .rng 'н' 'н'], .cls false [.rng 'А' 'А', .rng 'а' 'а'], .cls false [.rng 'З' 'З', .rng 'з' 'з'], .cls false [.rng 'А' 'А', .rng 'а' 'а'], .cls false [.rng 'Д' 'Д', .rng 'д' 'д', .rng 'ᲁ' 'ᲁ']], .seqs [.cls false [.rng 'Ч' 'Ч', .rng 'ч' 'ч'], .cls false [.rng 'Е' 'Е', .rng 'е' 'е'], .cls false [.rng 'Р' 'Р', .rng 'р' 'р'], .cls false [.rng 'Е' 'Е', .rng 'е' 'е'], .cls false [.rng 'З' 'З', .rng 'з' 'з'], .lit [' '], .number, .lit [' '], .cls false [.rng 'М' 'М', .rng 'м' 'м'], .cls false [.rng 'Е' 'Е', .rng 'е' 'е'], .cls false [.rng 'С' 'С', .rng 'с' 'с', .rng 'ᲃ' 'ᲃ'], .cls false [.rng 'Я' 'Я', .rng 'я' 'я'], .cls false [.rng 'Ц' 'Ц', .rng 'ц' 'ц'], .cls false [.rng 'А' 'А', .rng 'а' 'а']], .seqs [.cls false [.rng 'Ч' 'Ч', .rng 'ч' 'ч'], .cls false [.rng 'Е' 'Е', .rng 'е' 'е'], .cls false [.rng 'Р' 'Р', .rng 'р' 'р'], .cls false [.rng 'Е' 'Е', .rng 'е' 'е'], .cls false [.rng 'З' 'З', .rng 'з' 'з'], .lit [' '], .number, .lit [' '], .cls false [.rng 'М' 'М', .rng 'м' 'м'], .cls false [.rng 'И' 'И', .rng 'и' 'и'], .cls false [.rng 'Н' 'Н', .rng 'н' 'н'], .cls false [.rng 'У' 'У', .rng 'у' 'у'], .cls false [.rng 'Т' 'Т', .rng 'т' 'т', .rng 'ᲄ' 'ᲄ', .rng 'ᲅ' 'ᲅ'], .cls false [.rng 'У' 'У', .rng 'у' 'у']], .seqs [.cls false [.rng 'Ч' 'Ч', .rng 'ч' 'ч'], .cls false [.rng 'Е' 'Е', .rng 'е' 'е'], .cls false [.rng 'Р' 'Р', .rng 'р' 'р'], .cls false [.rng 'Е' 'Е', .rng 'е' 'е'], .cls false [.rng 'З' 'З', .rng 'з' 'з'], .lit [' '], .number, .lit [' '], .cls false [.rng 'М' 'М', .rng 'м' 'м'], .cls false [.rng 'И' 'И', .rng 'и' 'и'], .cls false [.rng 'Н' 'Н', .rng 'н' 'н'], .cls false [.rng 'У' 'У', .rng 'у' 'у'], .cls false [.rng 'Т' 'Т', .rng 'т' 'т', .rng 'ᲄ' 'ᲄ', .rng 'ᲅ' 'ᲅ'], .cls false [.rng 'Ы' 'Ы', .rng 'ы' 'ы']], .seqs [.cls false [.rng 'Ч' 'Ч', .rng 'ч' 'ч'], .cls false [.rng 'Е' 'Е', .rng 'е' 'е'], .cls false [.rng 'Р' 'Р', .rng 'р' 'р'], .cls false [.rng 'Е' 'Е', .rng 'е' 'е'], .cls false [.rng 'З' 'З', .rng 'з' 'з'], .lit [' '], .number, .lit [' '], .cls false [.rng 'Н' 'Н', .rng 'н' 'н'], .cls false [.rng 'Е' 'Е', .rng 'е' 'е'], .cls false [.rng 'Д' 'Д', .rng 'д' 'д', .rng 'ᲁ' 'ᲁ'], .cls false [.rng 'Е' 'Е', .rng 'е' 'е'], .cls false [.rng 'Л' 'Л', .rng 'л' 'л'], .cls false [.rng 'И' 'И', .rng 'и' 'и']], .seqs [.cls false [.rng 'Ч' 'Ч', .rng 'ч' 'ч'], .cls false [.rng 'Е' 'Е', .rng 'е' 'е'], .cls false [.rng 'Р' 'Р', .rng 'р' 'р'], .cls false [.rng 'Е' 'Е', .rng 'е' 'е'], .cls false [.rng 'З' 'З', .rng 'з' 'з'], .lit [' '], .number, .lit [' '], .cls false [.rng 'Н' 'Н', .rng 'н' 'н'], .cls false [.rng 'Е' 'Е', .rng 'е' 'е'], .cls false [.rng 'Д' 'Д', .rng 'д' 'д', .rng 'ᲁ' 'ᲁ'], .cls false [.rng 'Е' 'Е', .rng 'е' 'е'], .cls false [.rng 'Л' 'Л', .rng 'л' 'л'], .cls false [.rng 'Ю' 'Ю', .rng 'ю' 'ю']], .seqs [.number, .lit [' '], .cls false [.rng 'М' 'М', .rng 'м' 'м'], .cls false [.rng 'Е' 'Е', .rng 'е' 'е'], .cls false [.rng 'С' 'С', .rng 'с' 'с', .rng 'ᲃ' 'ᲃ'], .cls false [.rng 'Я' 'Я', .rng 'я' 'я'], .cls false [.rng 'Ц' 'Ц', .rng 'ц' 'ц'], .lit [' '], .cls false [.rng 'Н' 'Н', .rng 'н' 'н'], .cls false [.rng 'А' 'А', .rng 'а' 'а'], .cls false [.rng 'З' 'З', .rng 'з' 'з'], .cls false [.rng 'А' 'А', .rng 'а' 'а'], .cls false [.rng 'Д' 'Д', .rng 'д' 'д', .rng 'ᲁ' 'ᲁ']], .seqs [.cls false [.rng 'Ч' 'Ч', .rng 'ч' 'ч'], .cls false [.rng 'Е' 'Е', .rng 'е' 'е'], .cls false [.rng 'Р' 'Р', .rng 'р' 'р'], .cls false [.rng 'Е' 'Е', .rng 'е' 'е'], .cls false [.rng 'З' 'З', .rng 'з' 'з'], .lit [' '], .number, .lit [' '], .cls false [.rng 'М' 'М', .rng 'м' 'м'], .cls false [.rng 'Е' 'Е', .rng 'е' 'е'], .cls false [.rng 'С' 'С', .rng 'с' 'с', .rng 'ᲃ' 'ᲃ'], .cls false [.rng 'Я' 'Я', .rng 'я' 'я'], .cls false [.rng 'Ц' 'Ц', .rng 'ц' 'ц']], .seqs [.number, .lit [' '], .cls false [.rng 'Г' 'Г', .rng 'г' 'г'], .cls false [.rng 'О' 'О', .rng 'о' 'о', .rng 'ᲂ' 'ᲂ'], .cls false [.rng 'Д' 'Д', .rng 'д' 'д', .rng 'ᲁ' 'ᲁ'], .cls false [.rng 'А' 'А', .rng 'а' 'а'], .lit [' '], .cls false [.rng 'Н' 'Н', .rng 'н' 'н'], .cls false [.rng 'А' 'А', .rng 'а' 'а'], .cls false [.rng 'З' 'З', .rng 'з' 'з'], .cls false [.rng 'А' 'А', .rng 'а' 'а'], .cls false [.rng 'Д' 'Д', .rng 'д' 'д', .rng 'ᲁ' 'ᲁ']], .seqs [.number, .lit [' '], .cls false [.rng 'Д' 'Д', .rng 'д' 'д', .rng 'ᲁ' 'ᲁ'], .cls false [.rng 'Е' 'Е', .rng 'е' 'е'], .cls false [.rng 'Н' 'Н', .rng 'н' 'н'], .cls false [.rng 'Ь' 'Ь', .rng 'ь' 'ь'], .lit [' '], .cls false [.rng 'Н' 'Н', .rng 'н' 'н'], .cls false [.rng 'А' 'А', .rng 'а' 'а'], .cls false [.rng 'З' 'З', .rng 'з' 'з'], .cls false [.rng 'А' 'А', .rng 'а' 'а'], .cls false [.rng 'Д' 'Д', .rng 'д' 'д', .rng 'ᲁ' 'ᲁ']], .seqs [.number, .lit [' '], .cls false [.rng 'Ч' 'Ч', .rng 'ч' 'ч'], .cls false [.rng 'А' 'А', .rng 'а' 'а'], .cls false [.rng 'С' 'С', .rng 'с' 'с', .rng 'ᲃ' 'ᲃ'], .cls false [.rng 'А' 'А', .rng 'а' 'а'], .lit [' '], .cls false [.rng 'Н' 'Н', .rng 'н' 'н'], .cls false [.rng 'А' 'А', .rng 'а' 'а'], .cls false [.rng 'З' 'З', .rng 'з' 'з'], .cls false [.rng 'А' 'А', .rng 'а' 'а'], .cls false [.rng 'Д' 'Д', .rng 'д' 'д', .rng 'ᲁ' 'ᲁ']], .seqs [.cls false [.rng 'Ч' 'Ч', .rng 'ч' 'ч'], .cls false [.rng 'Е' 'Е', .rng 'е' 'е'], .cls false [.rng 'Р' 'Р', .rng 'р' 'р'], .cls false [.rng 'Е' 'Е', .rng 'е' 'е'], .cls false [.rng 'З' 'З', .rng 'з' 'з'], .lit [' '], .number, .lit [' '], .cls false [.rng 'Г' 'Г', .rng 'г' 'г'], .cls false [.rng 'О' 'О', .rng 'о' 'о', .rng 'ᲂ' 'ᲂ'], .cls false [.rng 'Д' 'Д', .rng 'д' 'д', .rng 'ᲁ' 'ᲁ'], .cls false [.rng 'А' 'А', .rng 'а' 'а']], .seqs [.cls false [.rng 'Ч' 'Ч', .rng 'ч' 'ч'], .cls false [.rng 'Е' 'Е', .rng 'е' 'е'], .cls false [.rng 'Р' 'Р', .rng 'р' 'р'], .cls false [.rng 'Е' 'Е', .rng 'е' 'е'], .cls false [.rng 'З' 'З', .rng 'з' 'з'], .lit [' '], .number, .lit [' '], .cls false [.rng 'Д' 'Д', .rng 'д' 'д', .rng 'ᲁ' 'ᲁ'], .cls false [.rng 'Е' 'Е', .rng 'е' 'е'], .cls false [.rng 'Н' 'Н', .rng 'н' 'н'], .cls false [.rng 'Ь' 'Ь', .rng 'ь' 'ь']], .seqs [.cls false [.rng 'Ч' 'Ч', .rng 'ч' 'ч'], .cls false [.rng 'Е' 'Е', .rng 'е' 'е'], .cls false [.rng 'Р' 'Р', .rng 'р' 'р'], .cls false [.rng 'Е' 'Е', .rng 'е' 'е'], .cls false [.rng 'З' 'З', .rng 'з' 'з'], .lit [' '], .number, .lit [' '], .cls false [.rng 'Ч' 'Ч', .rng 'ч' 'ч'], .cls false [.rng 'А' 'А', .rng 'а' 'а'], .cls false [.rng 'С' 'С', .rng 'с' 'с', .rng 'ᲃ' 'ᲃ'], .cls false [.rng 'А' 'А', .rng 'а' 'а']], .seqs [.number, .lit [' '], .cls false [.rng 'Г' 'Г', .rng 'г' 'г'], .cls false [.rng 'О' 'О', .rng 'о' 'о', .rng 'ᲂ' 'ᲂ'], .cls false [.rng 'Д' 'Д', .rng 'д' 'д', .rng 'ᲁ' 'ᲁ'], .lit [' '], .cls false [.rng 'Н' 'Н', .rng 'н' 'н'], .cls false [.rng 'А' 'А', .rng 'а' 'а'], .cls false [.rng 'З' 'З', .rng 'з' 'з'], .cls false [.rng 'А' 'А', .rng 'а' 'а'], .cls false [.rng 'Д' 'Д', .rng 'д' 'д', .rng 'ᲁ' 'ᲁ']], .seqs [.number, .lit [' '], .cls false [.rng 'Д' 'Д', .rng 'д' 'д', .rng 'ᲁ' 'ᲁ'], .cls false [.rng 'Н' 'Н', .rng 'н' 'н'], .cls false [.rng 'Я' 'Я', .rng 'я' 'я'], .lit [' '], .cls false [.rng 'Н' 'Н', .rng 'н' 'н'], .cls false [.rng 'А' 'А', .rng 'а' 'а'], .cls false [.rng 'З' 'З', .rng 'з' 'з'], .cls false [.rng 'А' 'А', .rng 'а' 'а'], .cls false [.rng 'Д' 'Д', .rng 'д' 'д', .rng 'ᲁ' 'ᲁ']], .seqs [.number, .lit [' '], .cls false [.rng 'М' 'М', .rng 'м' 'м'], .cls false [.rng 'Е' 'Е', .rng 'е' 'е'], .cls false [.rng 'С' 'С', .rng 'с' 'с', .rng 'ᲃ' 'ᲃ'], .lit [' '], .cls false [.rng 'Н' 'Н', .rng 'н' 'н'], .cls false [.rng 'А' 'А', .rng 'а' 'а'], .cls false [.rng 'З' 'З', .rng 'з' 'з'], .cls false [.rng 'А' 'А', .rng 'а' 'а'], .cls false [.rng 'Д' 'Д', .rng 'д' 'д', .rng 'ᲁ' 'ᲁ']], .seqs [.number, .lit [' '], .cls false [.rng 'М' 'М', .rng 'м' 'м'], .cls false [.rng 'И' 'И', .rng 'и' 'и'], .cls false [.rng 'Н' 'Н', .rng 'н' 'н'], .lit [' '], .cls false [.rng 'Н' 'Н', .rng 'н' 'н'], .cls false [.rng 'А' 'А', .rng 'а' 'а'], .cls false [.rng 'З' 'З', .rng 'з' 'з'], .cls false [.rng 'А' 'А', .rng 'а' 'а'], .cls false [.rng 'Д' 'Д', .rng 'д' 'д', .rng 'ᲁ' 'ᲁ']], .seqs [.number, .lit [' '], .cls false [.rng 'Н' 'Н', .rng 'н' 'н'], .cls false [.rng 'Е' 'Е', .rng 'е' 'е'], .cls false [.rng 'Д' 'Д', .rng 'д' 'д', .rng 'ᲁ' 'ᲁ'], .lit [' '], .cls false [.rng 'Н' 'Н', .rng 'н' 'н'], .cls false [.rng 'А' 'А', .rng 'а' 'а'], .cls false [.rng 'З' 'З', .rng 'з' 'з'], .cls false [.rng 'А' 'А', .rng 'а' 'а'], .cls false [.rng 'Д' 'Д', .rng 'д' 'д', .rng 'ᲁ' 'ᲁ']], .seqs [.number, .lit [' '], .cls false [.rng 'С' 'С', .rng 'с' 'с', .rng 'ᲃ' 'ᲃ'], .cls false [.rng 'Е' 'Е', .rng 'е' 'е'], .cls false [.rng 'К' 'К', .rng 'к' 'к'], .lit [' '], .cls false [.rng 'Н' 'Н', .rng 'н' 'н'], .cls false [.rng 'А' 'А', .rng 'а' 'а'], .cls false [.rng 'З' 'З', .rng 'з' 'з'], .cls false [.rng 'А' 'А', .rng 'а' 'а'], .cls false [.rng 'Д' 'Д', .rng 'д' 'д', .rng 'ᲁ' 'ᲁ']], .seqs [.number, .lit [' '], .cls false [.rng 'Ч' 'Ч', .rng 'ч' 'ч'], .cls false [.rng 'А' 'А', .rng 'а' 'а'], .cls false [.rng 'С' 'С', .rng 'с' 'с', .rng 'ᲃ' 'ᲃ'], .lit [' '], .cls false [.rng 'Н' 'Н', .rng 'н' 'н'], .cls false [.rng 'А' 'А', .rng 'а' 'а'], .cls false [.rng 'З' 'З', .rng 'з' 'з'], .cls false [.rng 'А' 'А', .rng 'а' 'а'], .cls false [.rng 'Д' 'Д', .rng 'д' 'д', .rng 'ᲁ' 'ᲁ']], .seqs [.cls false [.rng 'Ч' 'Ч', .rng 'ч' 'ч'], .cls false [.rng 'Е' 'Е', .rng 'е' 'е'], .cls false [.rng 'Р' 'Р', .rng 'р' 'р'], .cls false [.rng 'Е' 'Е', .rng 'е' 'е'], .cls false [.rng 'З' 'З', .rng 'з' 'з'], .lit [' '], .number, .lit [' '], .cls false [.rng 'Г' 'Г', .rng 'г' 'г'], .cls false [.rng 'О' 'О', .rng 'о' 'о', .rng 'ᲂ' 'ᲂ'], .cls false [.rng 'Д' 'Д', .rng 'д' 'д', .rng 'ᲁ' 'ᲁ']], .seqs [.cls false [.rng 'Ч' 'Ч', .rng 'ч' 'ч'], .cls false [.rng 'Е' 'Е', .rng 'е' 'е'], .cls false [.rng 'Р' 'Р', .rng 'р' 'р'], .cls false [.rng 'Е' 'Е', .rng 'е' 'е'], .cls false [.rng 'З' 'З', .rng 'з' 'з'], .lit [' '], .number, .lit [' '], .cls false [.rng 'Д' 'Д', .rng 'д' 'д', .rng 'ᲁ' 'ᲁ'], .cls false [.rng 'Н' 'Н', .rng 'н' 'н'], .cls false [.rng 'Я' 'Я', .rng 'я' 'я']], .seqs [.cls false [.rng 'Ч' 'Ч', .rng 'ч' 'ч'], .cls false [.rng 'Е' 'Е', .rng 'е' 'е'], .cls false [.rng 'Р' 'Р', .rng 'р' 'р'], .cls false [.rng 'Е' 'Е', .rng 'е' 'е'], .cls false [.rng 'З' 'З', .rng 'з' 'з'], .lit [' '], .number, .lit [' '], .cls false [.rng 'М' 'М', .rng 'м' 'м'], .cls false [.rng 'Е' 'Е', .rng 'е' 'е'], .cls false [.rng 'С' 'С', .rng 'с' 'с', .rng 'ᲃ' 'ᲃ']], .seqs [.cls false [.rng 'Ч' 'Ч', .rng 'ч' 'ч'], .cls false [.rng 'Е' 'Е', .rng 'е' 'е'], .cls false [.rng 'Р' 'Р', .rng 'р' 'р'], .cls false [.rng 'Е' 'Е', .rng 'е' 'е'], .cls false [.rng 'З' 'З', .rng 'з' 'з'], .lit [' '], .number, .lit [' '], .cls false [.rng 'М' 'М', .rng 'м' 'м'], .cls false [.rng 'И' 'И', .rng 'и' 'и'], .cls false [.rng 'Н' 'Н', .rng 'н' 'н']], .seqs [.cls false [.rng 'Ч' 'Ч', .rng 'ч' 'ч'], .cls false [.rng 'Е' 'Е', .rng 'е' 'е'], .cls false [.rng 'Р' 'Р', .rng 'р' 'р'], .cls false [.rng 'Е' 'Е', .rng 'е' 'е'], .cls false [.rng 'З' 'З', .rng 'з' 'з'], .lit [' '], .number, .lit [' '], .cls false [.rng 'Н' 'Н', .rng 'н' 'н'], .cls false [.rng 'Е' 'Е', .rng 'е' 'е'], .cls false [.rng 'Д' 'Д', .rng 'д' 'д', .rng 'ᲁ' 'ᲁ']], .seqs [.cls false [.rng 'Ч' 'Ч', .rng 'ч' 'ч'], .cls false [.rng 'Е' 'Е', .rng 'е' 'е'], .cls false [.rng 'Р' 'Р', .rng 'р' 'р'], .cls false [.rng 'Е' 'Е', .rng 'е' 'е'], .cls false [.rng 'З' 'З', .rng 'з' 'з'], .lit [' '], .number, .lit [' '], .cls false [.rng 'С' 'С', .rng 'с' 'с', .rng 'ᲃ' 'ᲃ'], .cls false [.rng 'Е' 'Е', .rng 'е' 'е'], .cls false [.rng 'К' 'К', .rng 'к' 'к']], .seqs [.cls false [.rng 'Ч' 'Ч', .rng 'ч' 'ч'], .cls false [.rng 'Е' 'Е', .rng 'е' 'е'], .cls false [.rng 'Р' 'Р', .rng 'р' 'р'], .cls false [.rng 'Е' 'Е', .rng 'е' 'е'], .cls false [.rng 'З' 'З', .rng 'з' 'з'], .lit [' '], .number, .lit [' '], .cls false [.rng 'Ч' 'Ч', .rng 'ч' 'ч'], .cls false [.rng 'А' 'А', .rng 'а' 'а'], .cls false [.rng 'С' 'С', .rng 'с' 'с', .rng 'ᲃ' 'ᲃ']], .seqs [.number, .lit [' '], .cls false [.rng 'Д' 'Д', .rng 'д' 'д', .rng 'ᲁ' 'ᲁ'], .cls false [.rng 'Н' 'Н', .rng 'н' 'н'], .lit [' '], .cls false [.rng 'Н' 'Н', .rng 'н' 'н'], .cls false [.rng 'А' 'А', .rng 'а' 'а'], .cls false [.rng 'З' 'З', .rng 'з' 'з'], .cls false [.rng 'А' 'А', .rng 'а' 'а'], .cls false [.rng 'Д' 'Д', .rng 'д' 'д', .rng 'ᲁ' 'ᲁ']], .seqs [.cls false [.rng 'Ч' 'Ч', .rng 'ч' 'ч'], .cls false [.rng 'Е' 'Е', .rng 'е' 'е'], .cls false [.rng 'Р' 'Р', .rng 'р' 'р'], .cls false [.rng 'Е' 'Е', .rng 'е' 'е'], .cls false [.rng 'З' 'З', .rng 'з' 'з'], .lit [' '], .number, .lit [' '], .cls false [.rng 'Д' 'Д', .rng 'д' 'д', .rng 'ᲁ' 'ᲁ'], .cls false [.rng 'Н' 'Н', .rng 'н' 'н']], .seqs [.number, .lit [' '], .cls false [.rng 'Г' 'Г', .rng 'г' 'г'], .lit [' '], .cls false [.rng 'Н' 'Н', .rng 'н' 'н'], .cls false [.rng 'А' 'А', .rng 'а' 'а'], .cls false [.rng 'З' 'З', .rng 'з' 'з'], .cls false [.rng 'А' 'А', .rng 'а' 'а'], .cls false [.rng 'Д' 'Д', .rng 'д' 'д', .rng 'ᲁ' 'ᲁ']], .seqs [.number, .lit [' '], .cls false [.rng 'Д' 'Д', .rng 'д' 'д', .rng 'ᲁ' 'ᲁ'], .lit [' '], .cls false [.rng 'Н' 'Н', .rng 'н' 'н'], .cls false [.rng 'А' 'А', .rng 'а' 'а'], .cls false [.rng 'З' 'З', .rng 'з' 'з'], .cls false [.rng 'А' 'А', .rng 'а' 'а'], .cls false [.rng 'Д' 'Д', .rng 'д' 'д', .rng 'ᲁ' 'ᲁ']], .seqs [.number, .lit [' '], .cls false [.rng 'Ч' 'Ч', .rng 'ч' 'ч'], .lit [' '], .cls false [.rng 'Н' 'Н', .rng 'н' 'н'], .cls false [.rng 'А' 'А', .rng 'а' 'а'], .cls false [.rng 'З' 'З', .rng 'з' 'з'], .cls false [.rng 'А' 'А', .rng 'а' 'а'], .cls false [.rng 'Д' 'Д', .rng 'д' 'д', .rng 'ᲁ' 'ᲁ']], .seqs [.cls false [.rng 'Ч' 'Ч', .rng 'ч' 'ч'], .cls false [.rng 'Е' 'Е', .rng 'е' 'е'], .cls false [.rng 'Р' 'Р', .rng 'р' 'р'], .cls false [.rng 'Е' 'Е', .rng 'е' 'е'], .cls false [.rng 'З' 'З', .rng 'з' 'з'], .lit [' '], .number, .lit [' '], .cls false [.rng 'Г' 'Г', .rng 'г' 'г']], .seqs [.cls false [.rng 'Ч' 'Ч', .rng 'ч' 'ч'], .cls false [.rng 'Е' 'Е', .rng 'е' 'е'], .cls false [.rng 'Р' 'Р', .rng 'р' 'р'], .cls false [.rng 'Е' 'Е', .rng 'е' 'е'], .cls false [.rng 'З' 'З', .rng 'з' 'з'], .lit [' '], .number, .lit [' '], .cls false [.rng 'Д' 'Д', .rng 'д' 'д', .rng 'ᲁ' 'ᲁ']], .seqs [.cls false [.rng 'Ч' 'Ч', .rng 'ч' 'ч'], .cls false [.rng 'Е' 'Е', .rng 'е' 'е'], .cls false [.rng 'Р' 'Р', .rng 'р' 'р'], .cls false [.rng 'Е' 'Е', .rng 'е' 'е'], .cls false [.rng 'З' 'З', .rng 'з' 'з'], .lit [' '], .number, .lit [' '], .cls false [.rng 'Ч' 'Ч', .rng 'ч' 'ч']]]), .eos]),
  knownWords :=
   [['н', 'а', ' ', 'с', 'л', 'е', 'д', 'у', 'ю', 'щ', 'е', 'и', ' ', 'н', 'е', 'д', 'е', 'л', 'е'], ['в', ' ', 'с', 'л', 'е', 'д', 'у', 'ю', 'щ', 'е', 'м', ' ', 'м', 'е', 'с', 'я', 'ц', 'е'], ['н', 'а', ' ', 'п', 'р', 'о', 'ш', 'л', 'о', 'и', ' ', 'н', 'е', 'д', 'е', 'л', 'е'], ['в', ' ', 'п', 'р', 'о', 'ш', 'л', 'о', 'м', ' ', 'м', 'е', 'с', 'я', 'ц', 'е'], ['в', ' ', 'с', 'л', 'е', 'д', 'у', 'ю', 'щ', 'е', 'м', ' ', 'г', 'о', 'д', 'у'], ['п', 'о', 'с', 'л', 'е', 'п', 'о', 'с', 'л', 'е', 'з', 'а', 'в', 'т', 'р', 'а'], ['в', ' ', 'п', 'р', 'о', 'ш', 'л', 'о', 'м', ' ', 'г', 'о', 'д', 'у'], ['н', 'а', ' ', 'э', 'т', 'о', 'и', ' ', 'н', 'е', 'д', 'е', 'л', 'е'], ['в', ' ', 'э', 'т', 'о', 'м', ' ', 'м', 'е', 'с', 'я', 'ц', 'е'], ['в', ' ', 'э', 'т', 'у', ' ', 'м', 'и', 'н', 'у', 'т', 'у'], ['в', ' ', 'э', 'т', 'о', 'м', ' ', 'г', 'о', 'д', 'у'], ['в', ' ', 'э', 'т', 'о', 'м', ' ', 'ч', 'а', 'с', 'е'], ['в', 'о', 'с', 'к', 'р', 'е', 'с', 'е', 'н', 'и', 'е'], ['в', 'о', 'с', 'к', 'р', 'е', 'с', 'е', 'н', 'ь', 'е'], ['п', 'о', 'н', 'е', 'д', 'е', 'л', 'ь', 'н', 'и', 'к'], ['п', 'о', 'с', 'л', 'е', 'з', 'а', 'в', 'т', 'р', 'а'], ['в', ' ', 'т', 'е', 'ч', 'е', 'н', 'и', 'е'], ['п', 'о', 'з', 'а', 'в', 'ч', 'е', 'р', 'а'], ['п', 'р', 'и', 'м', 'е', 'р', 'н', 'о'], ['с', 'е', 'н', 'т', 'я', 'б', 'р', 'ь'], ['с', 'е', 'н', 'т', 'я', 'б', 'р', 'я'], ['а', 'в', 'г', 'у', 'с', 'т', 'а'], ['в', 'т', 'о', 'р', 'н', 'и', 'к'], ['д', 'е', 'к', 'а', 'б', 'р', 'ь'], ['д', 'е', 'к', 'а', 'б', 'р', 'я'], ['м', 'е', 'с', 'я', 'ц', 'е', 'в'], ['о', 'к', 'т', 'я', 'б', 'р', 'ь'], ['о', 'к', 'т', 'я', 'б', 'р', 'я'], ['п', 'я', 'т', 'н', 'и', 'ц', 'а'], ['п', 'я', 'т', 'н', 'и', 'ц', 'у'], ['с', 'е', 'г', 'о', 'д', 'н', 'я'], ['с', 'е', 'к', 'у', 'н', 'д', 'а'], ['с', 'е', 'к', 'у', 'н', 'д', 'у'], ['с', 'е', 'к', 'у', 'н', 'д', 'ы'], ['с', 'у', 'б', 'б', 'о', 'т', 'а'], ['с', 'у', 'б', 'б', 'о', 'т', 'у'], ['ф', 'е', 'в', 'р', 'а', 'л', 'ь'], ['ф', 'е', 'в', 'р', 'а', 'л', 'я'], ['ч', 'е', 'т', 'в', 'е', 'р', 'г'], ['а', 'в', 'г', 'у', 'с', 'т'], ['а', 'п', 'р', 'е', 'л', 'ь'], ['а', 'п', 'р', 'е', 'л', 'я'], ['з', 'а', 'в', 'т', 'р', 'а'], ['м', 'е', 'с', 'я', 'ц', 'а'], ['м', 'и', 'н', 'у', 'т', 'а'], ['м', 'и', 'н', 'у', 'т', 'у'], ['м', 'и', 'н', 'у', 'т', 'ы'], ['н', 'е', 'д', 'е', 'л', 'и'], ['н', 'е', 'д', 'е', 'л', 'ь'], ['н', 'е', 'д', 'е', 'л', 'ю'], ['н', 'е', 'д', 'е', 'л', 'я'], ['н', 'о', 'я', 'б', 'р', 'ь'], ['н', 'о', 'я', 'б', 'р', 'я'], ['с', 'е', 'и', 'ч', 'а', 'с'], ['с', 'е', 'к', 'у', 'н', 'д'], ['с', 'п', 'у', 'с', 'т', 'я'], ['я', 'н', 'в', 'а', 'р', 'ь'], ['я', 'н', 'в', 'а', 'р', 'я'], ['в', 'ч', 'е', 'р', 'а'], ['м', 'а', 'р', 'т', 'а'], ['м', 'е', 'с', 'я', 'ц'], ['м', 'и', 'н', 'у', 'т'], ['н', 'а', 'з', 'а', 'д'], ['о', 'к', 'о', 'л', 'о'], ['с', 'р', 'е', 'д', 'а'], ['с', 'р', 'е', 'д', 'у'], ['с', 'у', 'т', 'к', 'и'], ['с', 'у', 'т', 'о', 'к'], ['ч', 'а', 'с', 'о', 'в'], ['ч', 'е', 'р', 'е', 'з'], ['г', 'о', 'д', 'а'], ['г', 'о', 'д', 'у'], ['д', 'е', 'н', 'ь'], ['д', 'н', 'е', 'и'], ['и', 'ю', 'л', 'ь'], ['и', 'ю', 'л', 'я'], ['и', 'ю', 'н', 'ь'], ['и', 'ю', 'н', 'я'], ['м', 'а', 'р', 'т'], ['н', 'о', 'я', 'б'], ['с', 'е', 'н', 'т'], ['ф', 'е', 'в', 'р'], ['ч', 'а', 'с', 'а'], ['g', 'm', 't'], ['u', 't', 'c'], ['а', 'в', 'г'], ['а', 'п', 'р'], ['в', 'с', 'к'], ['в', 'т', 'р'], ['г', 'о', 'д'], ['д', 'е', 'к'], ['д', 'н', 'я'], ['и', 'ю', 'л'], ['и', 'ю', 'н'], ['л', 'е', 'т'], ['м', 'а', 'и'], ['м', 'а', 'р'], ['м', 'а', 'я'], ['м', 'е', 'с'], ['м', 'и', 'н'], ['н', 'е', 'д'], ['н', 'о', 'я'], ['о', 'к', 'т'], ['п', 'н', 'д'], ['п', 'т', 'н'], ['с', 'б', 'т'], ['с', 'е', 'к'], ['с', 'е', 'н'], ['с', 'р', 'д'], ['ф', 'е', 'в'], ['ч', 'а', 'с'], ['ч', 'т', 'в'], ['я', 'н', 'в'], ['a', 'm'], ['p', 'm'], ['в', 'о'], ['в', 'с'], ['в', 'т'], ['д', 'н'], ['д', 'п'], ['п', 'н'], ['п', 'п'], ['п', 'т'], ['с', 'б'], ['с', 'р'], ['ч', 'т'], [' '], ['\''], ['+'], [','], ['-'], ['.'], ['/'], [':'], [';'], ['@'], ['['], [']'], ['z'], ['|'], ['в'], ['г'], ['и'], ['с'], ['ч']] }

end Verif.Data
