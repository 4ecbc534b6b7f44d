import Verif.Data.Dicts
/-! GENERATED by tools/gen_pats.py from /repo/internal/data; do not edit. -/
set_option autoImplicit false
set_option maxRecDepth 100000
namespace Verif.Data
open Verif.Model

/-- internal/data/ur.go: `ur_Locale`. -/
def urLang : LangData := { urDict with
  relativeRegexes :=
   [(.seqs [.grp 1 (.number), .lit [' ', 'س', 'ی', 'ک', 'ن', 'ڈ', ' ', 'پ', 'ہ', 'ل', 'ے']], [.ref 1, .lit [' ', 's', 'e', 'c', 'o', 'n', 'd', ' ', 'a', 'g', 'o']]),
    (.seqs [.grp 1 (.number), .lit [' ', 'م', 'ہ', 'ی', 'ن', 'ہ', ' ', 'پ', 'ہ', 'ل', 'ے']], [.ref 1, .lit [' ', 'm', 'o', 'n', 't', 'h', ' ', 'a', 'g', 'o']]),
    (.seqs [.grp 1 (.number), .lit [' ', 'م', 'ہ', 'ی', 'ن', 'ے', ' ', 'پ', 'ہ', 'ل', 'ے']], [.ref 1, .lit [' ', 'm', 'o', 'n', 't', 'h', ' ', 'a', 'g', 'o']]),
    (.seqs [.grp 1 (.number), .lit [' ', 'گ', 'ھ', 'ن', 'ٹ', 'و', 'ں', ' ', 'م', 'ی', 'ں']], [.lit ['i', 'n', ' '], .ref 1, .lit [' ', 'h', 'o', 'u', 'r']]),
    (.seqs [.grp 1 (.number), .lit [' ', 'گ', 'ھ', 'ن', 'ٹ', 'ہ', ' ', 'پ', 'ہ', 'ل', 'ے']], [.ref 1, .lit [' ', 'h', 'o', 'u', 'r', ' ', 'a', 'g', 'o']]),
    (.seqs [.grp 1 (.number), .lit [' ', 'گ', 'ھ', 'ن', 'ٹ', 'ے', ' ', 'پ', 'ہ', 'ل', 'ے']], [.ref 1, .lit [' ', 'h', 'o', 'u', 'r', ' ', 'a', 'g', 'o']]),
    (.seqs [.grp 1 (.number), .lit [' ', 'د', 'ن', 'و', 'ں', ' ', 'پ', 'ہ', 'ل', 'ے']], [.ref 1, .lit [' ', 'd', 'a', 'y', ' ', 'a', 'g', 'o']]),
    (.seqs [.grp 1 (.number), .lit [' ', 'س', 'ی', 'ک', 'ن', 'ڈ', ' ', 'م', 'ی', 'ں']], [.lit ['i', 'n', ' '], .ref 1, .lit [' ', 's', 'e', 'c', 'o', 'n', 'd']]),
    (.seqs [.grp 1 (.number), .lit [' ', 'م', 'ہ', 'ی', 'ن', 'ہ', ' ', 'م', 'ی', 'ں']], [.lit ['i', 'n', ' '], .ref 1, .lit [' ', 'm', 'o', 'n', 't', 'h']]),
    (.seqs [.grp 1 (.number), .lit [' ', 'م', 'ہ', 'ی', 'ن', 'ے', ' ', 'م', 'ی', 'ں']], [.lit ['i', 'n', ' '], .ref 1, .lit [' ', 'm', 'o', 'n', 't', 'h']]),
    (.seqs [.grp 1 (.number), .lit [' ', 'گ', 'ھ', 'ن', 'ٹ', 'ہ', ' ', 'م', 'ی', 'ں']], [.lit ['i', 'n', ' '], .ref 1, .lit [' ', 'h', 'o', 'u', 'r']]),
    (.seqs [.grp 1 (.number), .lit [' ', 'گ', 'ھ', 'ن', 'ٹ', 'ے', ' ', 'م', 'ی', 'ں']], [.lit ['i', 'n', ' '], .ref 1, .lit [' ', 'h', 'o', 'u', 'r']]),
    (.seqs [.grp 1 (.number), .lit [' ', 'ہ', 'ف', 'ت', 'ہ', ' ', 'پ', 'ہ', 'ل', 'ے']], [.ref 1, .lit [' ', 'w', 'e', 'e', 'k', ' ', 'a', 'g', 'o']]),
    (.seqs [.grp 1 (.number), .lit [' ', 'ہ', 'ف', 'ت', 'ے', ' ', 'پ', 'ہ', 'ل', 'ے']], [.ref 1, .lit [' ', 'w', 'e', 'e', 'k', ' ', 'a', 'g', 'o']]),
    (.seqs [.grp 1 (.number), .lit [' ', 'د', 'ن', 'و', 'ں', ' ', 'م', 'ی', 'ں']], [.lit ['i', 'n', ' '], .ref 1, .lit [' ', 'd', 'a', 'y']]),
    (.seqs [.grp 1 (.number), .lit [' ', 'س', 'ا', 'ل', ' ', 'پ', 'ہ', 'ل', 'ے']], [.ref 1, .lit [' ', 'y', 'e', 'a', 'r', ' ', 'a', 'g', 'o']]),
    (.seqs [.grp 1 (.number), .lit [' ', 'م', 'ا', 'ہ', ' ', 'پ', 'ہ', 'ل', 'ے']], [.ref 1, .lit [' ', 'm', 'o', 'n', 't', 'h', ' ', 'a', 'g', 'o']]),
    (.seqs [.grp 1 (.number), .lit [' ', 'م', 'ن', 'ٹ', ' ', 'پ', 'ہ', 'ل', 'ے']], [.ref 1, .lit [' ', 'm', 'i', 'n', 'u', 't', 'e', ' ', 'a', 'g', 'o']]),
    (.seqs [.grp 1 (.number), .lit [' ', 'ہ', 'ف', 'ت', 'ہ', ' ', 'م', 'ی', 'ں']], [.lit ['i', 'n', ' '], .ref 1, .lit [' ', 'w', 'e', 'e', 'k']]),
    (.seqs [.grp 1 (.number), .lit [' ', 'ہ', 'ف', 'ت', 'ے', ' ', 'م', 'ی', 'ں']], [.lit ['i', 'n', ' '], .ref 1, .lit [' ', 'w', 'e', 'e', 'k']]),
    (.seqs [.grp 1 (.number), .lit [' ', 'د', 'ن', ' ', 'پ', 'ہ', 'ل', 'ے']], [.ref 1, .lit [' ', 'd', 'a', 'y', ' ', 'a', 'g', 'o']]),
    (.seqs [.grp 1 (.number), .lit [' ', 'س', 'ا', 'ل', ' ', 'م', 'ی', 'ں']], [.lit ['i', 'n', ' '], .ref 1, .lit [' ', 'y', 'e', 'a', 'r']]),
    (.seqs [.grp 1 (.number), .lit [' ', 'م', 'ا', 'ہ', ' ', 'ق', 'ب', 'ل']], [.ref 1, .lit [' ', 'm', 'o', 'n', 't', 'h', ' ', 'a', 'g', 'o']]),
    (.seqs [.grp 1 (.number), .lit [' ', 'م', 'ا', 'ہ', ' ', 'م', 'ی', 'ں']], [.lit ['i', 'n', ' '], .ref 1, .lit [' ', 'm', 'o', 'n', 't', 'h']]),
    (.seqs [.grp 1 (.number), .lit [' ', 'م', 'ن', 'ٹ', ' ', 'م', 'ی', 'ں']], [.lit ['i', 'n', ' '], .ref 1, .lit [' ', 'm', 'i', 'n', 'u', 't', 'e']]),
    (.seqs [.grp 1 (.number), .lit [' ', 'د', 'ن', ' ', 'م', 'ی', 'ں']], [.lit ['i', 'n', ' '], .ref 1, .lit [' ', 'd', 'a', 'y']])],
  rxCombined := some (.seqs [.grp 1 (.alts [.bos, .cls true [.letter, .mark, .digit], .lit ['_']]), .grp 2 (.alts [.seqs [.number, .lit [' ', 'س', 'ی', 'ک', 'ن', 'ڈ', ' ', 'پ', 'ہ', 'ل', 'ے']], .seqs [.number, .lit [' ', 'م', 'ہ', 'ی', 'ن', 'ہ', ' ', 'پ', 'ہ', 'ل', 'ے']], .seqs [.number, .lit [' ', 'م', 'ہ', 'ی', 'ن', 'ے', ' ', 'پ', 'ہ', 'ل', 'ے']], .seqs [.number, .lit [' ', 'گ', 'ھ', 'ن', 'ٹ', 'و', 'ں', ' ', 'م', 'ی', 'ں']], .seqs [.number, .lit [' ', 'گ', 'ھ', 'ن', 'ٹ', 'ہ', ' ', 'پ', 'ہ', 'ل', 'ے']], .seqs [.number, .lit [' ', 'گ', 'ھ', 'ن', 'ٹ', 'ے', ' ', 'پ', 'ہ', 'ل', 'ے']], .seqs [.number, .lit [' ', 'د', 'ن', 'و', 'ں', ' ', 'پ', 'ہ', 'ل', 'ے']], .seqs [.number, .lit [' ', 'س', 'ی', 'ک', 'ن', 'ڈ', ' ', 'م', 'ی', 'ں']], .seqs [.number, .lit [' ', 'م', 'ہ', 'ی', 'ن', 'ہ', ' ', 'م', 'ی', 'ں']], .seqs [.number, .lit [' ', 'م', 'ہ', 'ی', 'ن', 'ے', ' ', 'م', 'ی', 'ں']], .seqs [.number, .lit [' ', 'گ', 'ھ', 'ن', 'ٹ', 'ہ', ' ', 'م', 'ی', 'ں']], .seqs [.number, .lit [' ', 'گ', 'ھ', 'ن', 'ٹ', 'ے', ' ', 'م', 'ی', 'ں']], .seqs [.number, .lit [' ', 'ہ', 'ف', 'ت', 'ہ', ' ', 'پ', 'ہ', 'ل', 'ے']], .seqs [.number, .lit [' ', 'ہ', 'ف', 'ت', 'ے', ' ', 'پ', 'ہ', 'ل', 'ے']], .seqs [.number, .lit [' ', 'د', 'ن', 'و', 'ں', ' ', 'م', 'ی', 'ں']], .seqs [.number, .lit [' ', 'س', 'ا', 'ل', ' ', 'پ', 'ہ', 'ل', 'ے']], .seqs [.number, .lit [' ', 'م', 'ا', 'ہ', ' ', 'پ', 'ہ', 'ل', 'ے']], .seqs [.number, .lit [' ', 'م', 'ن', 'ٹ', ' ', 'پ', 'ہ', 'ل', 'ے']], .seqs [.number, .lit [' ', 'ہ', 'ف', 'ت', 'ہ', ' ', 'م', 'ی', 'ں']], .seqs [.number, .lit [' ', 'ہ', 'ف', 'ت', 'ے', ' ', 'م', 'ی', 'ں']], .seqs [.number, .lit [' ', 'د', 'ن', ' ', 'پ', 'ہ', 'ل', 'ے']], .seqs [.number, .lit [' ', 'س', 'ا', 'ل', ' ', 'م', 'ی', 'ں']], .seqs [.number, .lit [' ', 'م', 'ا', 'ہ', ' ', 'ق', 'ب', 'ل']], .seqs [.number, .lit [' ', 'م', 'ا', 'ہ', ' ', 'م', 'ی', 'ں']], .seqs [.number, .lit [' ', 'م', 'ن', 'ٹ', ' ', 'م', 'ی', 'ں']], .seqs [.number, .lit [' ', 'د', 'ن', ' ', 'م', 'ی', 'ں']]]), .grp 3 (.alts [.eos, .cls true [.letter, .mark, .digit], .lit ['_']])], 3),
  rxExact := some (.seqs [.bos, .grp 1 (.alts [.seqs [.number, .lit [' ', 'س', 'ی', 'ک', 'ن', 'ڈ', ' ', 'پ', 'ہ', 'ل', 'ے']], .seqs [.number, .lit [' ', 'م', 'ہ', 'ی', 'ن', 'ہ', ' ', 'پ', 'ہ', 'ل', 'ے']], .seqs [.number, .lit [' ', 'م', 'ہ', 'ی', 'ن', 'ے', ' ', 'پ', 'ہ', 'ل', 'ے']], .seqs [.number, .lit [' ', 'گ', 'ھ', 'ن', 'ٹ', 'و', 'ں', ' ', 'م', 'ی', 'ں']], .seqs [.number, .lit [' ', 'گ', 'ھ', 'ن', 'ٹ', 'ہ', ' ', 'پ', 'ہ', 'ل', 'ے']], .seqs [.number, .lit [' ', 'گ', 'ھ', 'ن', 'ٹ', 'ے', ' ', 'پ', 'ہ', 'ل', 'ے']], .seqs [.number, .lit [' ', 'د', 'ن', 'و', 'ں', ' ', 'پ', 'ہ', 'ل', 'ے']], .seqs [.number, .lit [' ', 'س', 'ی', 'ک', 'ن', 'ڈ', ' ', 'م', 'ی', 'ں']], .seqs [.number, .lit [' ', 'م', 'ہ', 'ی', 'ن', 'ہ', ' ', 'م', 'ی', 'ں']], .seqs [.number, .lit [' ', 'م', 'ہ', 'ی', 'ن', 'ے', ' ', 'م', 'ی', 'ں']], .seqs [.number, .lit [' ', 'گ', 'ھ', 'ن', 'ٹ', 'ہ', ' ', 'م', 'ی', 'ں']], .seqs [.number, .lit [' ', 'گ', 'ھ', 'ن', 'ٹ', 'ے', ' ', 'م', 'ی', 'ں']], .seqs [.number, .lit [' ', 'ہ', 'ف', 'ت', 'ہ', ' ', 'پ', 'ہ', 'ل', 'ے']], .seqs [.number, .lit [' ', 'ہ', 'ف', 'ت', 'ے', ' ', 'پ', 'ہ', 'ل', 'ے']], .seqs [.number, .lit [' ', 'د', 'ن', 'و', 'ں', ' ', 'م', 'ی', 'ں']], .seqs [.number, .lit [' ', 'س', 'ا', 'ل', ' ', 'پ', 'ہ', 'ل', 'ے']], .seqs [.number, .lit [' ', 'م', 'ا', 'ہ', ' ', 'پ', 'ہ', 'ل', 'ے']], .seqs [.number, .lit [' ', 'م', 'ن', 'ٹ', ' ', 'پ', 'ہ', 'ل', 'ے']], .seqs [.number, .lit [' ', 'ہ', 'ف', 'ت', 'ہ', ' ', 'م', 'ی', 'ں']], .seqs [.number, .lit [' ', 'ہ', 'ف', 'ت', 'ے', ' ', 'م', 'ی', 'ں']], .seqs [.number, .lit [' ', 'د', 'ن', ' ', 'پ', 'ہ', 'ل', 'ے']], .seqs [.number, .lit [' ', 'س', 'ا', 'ل', ' ', 'م', 'ی', 'ں']], .seqs [.number, .lit [' ', 'م', 'ا', 'ہ', ' ', 'ق', 'ب', 'ل']], .seqs [.number, .lit [' ', 'م', 'ا', 'ہ', ' ', 'م', 'ی', 'ں']], .seqs [.number, .lit [' ', 'م', 'ن', 'ٹ', ' ', 'م', 'ی', 'ں']], .seqs [.number, .lit [' ', 'د', 'ن', ' ', 'م', 'ی', 'ں']]]), .eos]),
  knownWords :=
   [['پ', 'چ', 'ھ', 'ل', 'ے', ' ', 'م', 'ہ', 'ی', 'ن', 'ہ'], ['ا', 'گ', 'ل', 'ے', ' ', 'م', 'ہ', 'ی', 'ن', 'ہ'], ['پ', 'چ', 'ھ', 'ل', 'ے', ' ', 'ہ', 'ف', 'ت', 'ہ'], ['ا', 'گ', 'ل', 'ے', ' ', 'ہ', 'ف', 'ت', 'ہ'], ['گ', 'ز', 'ش', 'ت', 'ہ', ' ', 'س', 'ا', 'ل'], ['ا', 'س', ' ', 'م', 'ہ', 'ی', 'ن', 'ہ'], ['ا', 'س', ' ', 'گ', 'ھ', 'ن', 'ٹ', 'ے'], ['ا', 'ي', 'ن', 'د', 'ہ', ' ', 'ک', 'ل'], ['ا', 'گ', 'ل', 'ے', ' ', 'س', 'ا', 'ل'], ['گ', 'ز', 'ش', 'ت', 'ہ', ' ', 'ک', 'ل'], ['ا', 'س', ' ', 'ہ', 'ف', 'ت', 'ہ'], ['ا', 'س', ' ', 'س', 'ا', 'ل'], ['ا', 'س', ' ', 'م', 'ن', 'ٹ'], ['ا', 'ک', 'ت', 'و', 'ب', 'ر'], ['ج', 'م', 'ع', 'ر', 'ا', 'ت'], ['ج', 'و', 'ل', 'ا', 'ي', 'ی'], ['س', 'و', 'م', 'و', 'ا', 'ر'], ['ا', 'ت', 'و', 'ا', 'ر'], ['ا', 'پ', 'ر', 'ی', 'ل'], ['ج', 'ن', 'و', 'ر', 'ی'], ['د', 'س', 'م', 'ب', 'ر'], ['س', 'ت', 'م', 'ب', 'ر'], ['س', 'ی', 'ک', 'ن', 'ڈ'], ['ف', 'ر', 'و', 'ر', 'ی'], ['م', 'ہ', 'ی', 'ن', 'ہ'], ['ن', 'و', 'م', 'ب', 'ر'], ['گ', 'ھ', 'ن', 'ٹ', 'ہ'], ['ا', 'گ', 'س', 'ت'], ['ج', 'م', 'ع', 'ہ'], ['م', 'ا', 'ر', 'چ'], ['م', 'ن', 'گ', 'ل'], ['ہ', 'ف', 'ت', 'ہ'], ['g', 'm', 't'], ['u', 't', 'c'], ['ب', 'د', 'ھ'], ['ج', 'و', 'ن'], ['س', 'ا', 'ل'], ['م', 'ا', 'ہ'], ['م', 'ن', 'ٹ'], ['م', 'ي', 'ی'], ['a', 'm'], ['p', 'm'], ['ا', 'ب'], ['ا', 'ج'], ['د', 'ن'], [' '], ['\''], ['+'], [','], ['-'], ['.'], ['/'], [':'], [';'], ['@'], ['['], [']'], ['z'], ['|']] }

/-- internal/data/ur.go: `ur_IN_Locale`. -/
def ur_INLang : LangData := { ur_INDict with
  relativeRegexes :=
   [(.seqs [.grp 1 (.number), .lit [' ', 'س', 'ا', 'ل', 'و', 'ں', ' ', 'پ', 'ہ', 'ل', 'ے']], [.ref 1, .lit [' ', 'y', 'e', 'a', 'r', ' ', 'a', 'g', 'o']]),
    (.seqs [.grp 1 (.number), .lit [' ', 'س', 'ا', 'ل', 'و', 'ں', ' ', 'م', 'ی', 'ں']], [.lit ['i', 'n', ' '], .ref 1, .lit [' ', 'y', 'e', 'a', 'r']]),
    (.seqs [.grp 1 (.number), .lit [' ', 'س', 'ی', 'ک', 'ن', 'ڈ', ' ', 'ق', 'ب', 'ل']], [.ref 1, .lit [' ', 's', 'e', 'c', 'o', 'n', 'd', ' ', 'a', 'g', 'o']]),
    (.seqs [.grp 1 (.number), .lit [' ', 'گ', 'ھ', 'ن', 'ٹ', 'ہ', ' ', 'ق', 'ب', 'ل']], [.ref 1, .lit [' ', 'h', 'o', 'u', 'r', ' ', 'a', 'g', 'o']]),
    (.seqs [.grp 1 (.number), .lit [' ', 'گ', 'ھ', 'ن', 'ٹ', 'ے', ' ', 'ق', 'ب', 'ل']], [.ref 1, .lit [' ', 'h', 'o', 'u', 'r', ' ', 'a', 'g', 'o']]),
    (.seqs [.grp 1 (.number), .lit [' ', 'ہ', 'ف', 'ت', 'و', 'ں', ' ', 'م', 'ی', 'ں']], [.lit ['i', 'n', ' '], .ref 1, .lit [' ', 'w', 'e', 'e', 'k']]),
    (.seqs [.grp 1 (.number), .lit [' ', 'ہ', 'ف', 'ت', 'ہ', ' ', 'ق', 'ب', 'ل']], [.ref 1, .lit [' ', 'w', 'e', 'e', 'k', ' ', 'a', 'g', 'o']]),
    (.seqs [.grp 1 (.number), .lit [' ', 'ہ', 'ف', 'ت', 'ے', ' ', 'ق', 'ب', 'ل']], [.ref 1, .lit [' ', 'w', 'e', 'e', 'k', ' ', 'a', 'g', 'o']]),
    (.seqs [.grp 1 (.number), .lit [' ', 'م', 'ن', 'ٹ', ' ', 'ق', 'ب', 'ل']], [.ref 1, .lit [' ', 'm', 'i', 'n', 'u', 't', 'e', ' ', 'a', 'g', 'o']]),
    (.seqs [.grp 1 (.number), .lit [' ', 'د', 'ن', ' ', 'ق', 'ب', 'ل']], [.ref 1, .lit [' ', 'd', 'a', 'y', ' ', 'a', 'g', 'o']])],
  rxCombined := some (.seqs [.grp 1 (.alts [.bos, .cls true [.letter, .mark, .digit], .lit ['_']]), .grp 2 (.alts [.seqs [.number, .lit [' ', 'س', 'ا', 'ل', 'و', 'ں', ' ', 'پ', 'ہ', 'ل', 'ے']], .seqs [.number, .lit [' ', 'س', 'ی', 'ک', 'ن', 'ڈ', ' ', 'پ', 'ہ', 'ل', 'ے']], .seqs [.number, .lit [' ', 'م', 'ہ', 'ی', 'ن', 'ہ', ' ', 'پ', 'ہ', 'ل', 'ے']], .seqs [.number, .lit [' ', 'م', 'ہ', 'ی', 'ن', 'ے', ' ', 'پ', 'ہ', 'ل', 'ے']], .seqs [.number, .lit [' ', 'گ', 'ھ', 'ن', 'ٹ', 'و', 'ں', ' ', 'م', 'ی', 'ں']], .seqs [.number, .lit [' ', 'گ', 'ھ', 'ن', 'ٹ', 'ہ', ' ', 'پ', 'ہ', 'ل', 'ے']], .seqs [.number, .lit [' ', 'گ', 'ھ', 'ن', 'ٹ', 'ے', ' ', 'پ', 'ہ', 'ل', 'ے']], .seqs [.number, .lit [' ', 'د', 'ن', 'و', 'ں', ' ', 'پ', 'ہ', 'ل', 'ے']], .seqs [.number, .lit [' ', 'س', 'ا', 'ل', 'و', 'ں', ' ', 'م', 'ی', 'ں']], .seqs [.number, .lit [' ', 'س', 'ی', 'ک', 'ن', 'ڈ', ' ', 'ق', 'ب', 'ل']], .seqs [.number, .lit [' ', 'س', 'ی', 'ک', 'ن', 'ڈ', ' ', 'م', 'ی', 'ں']], .seqs [.number, .lit [' ', 'م', 'ہ', 'ی', 'ن', 'ہ', ' ', 'م', 'ی', 'ں']], .seqs [.number, .lit [' ', 'م', 'ہ', 'ی', 'ن', 'ے', ' ', 'م', 'ی', 'ں']], .seqs [.number, .lit [' ', 'گ', 'ھ', 'ن', 'ٹ', 'ہ', ' ', 'ق', 'ب', 'ل']], .seqs [.number, .lit [' ', 'گ', 'ھ', 'ن', 'ٹ', 'ہ', ' ', 'م', 'ی', 'ں']], .seqs [.number, .lit [' ', 'گ', 'ھ', 'ن', 'ٹ', 'ے', ' ', 'ق', 'ب', 'ل']], .seqs [.number, .lit [' ', 'گ', 'ھ', 'ن', 'ٹ', 'ے', ' ', 'م', 'ی', 'ں']], .seqs [.number, .lit [' ', 'ہ', 'ف', 'ت', 'و', 'ں', ' ', 'م', 'ی', 'ں']], .seqs [.number, .lit [' ', 'ہ', 'ف', 'ت', 'ہ', ' ', 'پ', 'ہ', 'ل', 'ے']], .seqs [.number, .lit [' ', 'ہ', 'ف', 'ت', 'ے', ' ', 'پ', 'ہ', 'ل', 'ے']], .seqs [.number, .lit [' ', 'د', 'ن', 'و', 'ں', ' ', 'م', 'ی', 'ں']], .seqs [.number, .lit [' ', 'س', 'ا', 'ل', ' ', 'پ', 'ہ', 'ل', 'ے']], .seqs [.number, .lit [' ', 'م', 'ا', 'ہ', ' ', 'پ', 'ہ', 'ل', 'ے']], .seqs [.number, .lit [' ', 'م', 'ن', 'ٹ', ' ', 'پ', 'ہ', 'ل', 'ے']], .seqs [.number, .lit [' ', 'ہ', 'ف', 'ت', 'ہ', ' ', 'ق', 'ب', 'ل']], .seqs [.number, .lit [' ', 'ہ', 'ف', 'ت', 'ہ', ' ', 'م', 'ی', 'ں']], .seqs [.number, .lit [' ', 'ہ', 'ف', 'ت', 'ے', ' ', 'ق', 'ب', 'ل']], .seqs [.number, .lit [' ', 'ہ', 'ف', 'ت', 'ے', ' ', 'م', 'ی', 'ں']], .seqs [.number, .lit [' ', 'د', 'ن', ' ', 'پ', 'ہ', 'ل', 'ے']], .seqs [.number, .lit [' ', 'س', 'ا', 'ل', ' ', 'م', 'ی', 'ں']], .seqs [.number, .lit [' ', 'م', 'ا', 'ہ', ' ', 'ق', 'ب', 'ل']], .seqs [.number, .lit [' ', 'م', 'ا', 'ہ', ' ', 'م', 'ی', 'ں']], .seqs [.number, .lit [' ', 'م', 'ن', 'ٹ', ' ', 'ق', 'ب', 'ل']], .seqs [.number, .lit [' ', 'م', 'ن', 'ٹ', ' ', 'م', 'ی', 'ں']], .seqs [.number, .lit [' ', 'د', 'ن', ' ', 'ق', 'ب', 'ل']], .seqs [.number, .lit [' ', 'د', 'ن', ' ', 'م', 'ی', 'ں']]]), .grp 3 (.alts [.eos, .cls true [.letter, .mark, .digit], .lit ['_']])], 3),
  rxExact := some (.seqs [.bos, .grp 1 (.alts [.seqs [.number, .lit [' ', 'س', 'ا', 'ل', 'و', 'ں', ' ', 'پ', 'ہ', 'ل', 'ے']], .seqs [.number, .lit [' ', 'س', 'ی', 'ک', 'ن', 'ڈ', ' ', 'پ', 'ہ', 'ل', 'ے']], .seqs [.number, .lit [' ', 'م', 'ہ', 'ی', 'ن', 'ہ', ' ', 'پ', 'ہ', 'ل', 'ے']], .seqs [.number, .lit [' ', 'م', 'ہ', 'ی', 'ن', 'ے', ' ', 'پ', 'ہ', 'ل', 'ے']], .seqs [.number, .lit [' ', 'گ', 'ھ', 'ن', 'ٹ', 'و', 'ں', ' ', 'م', 'ی', 'ں']], .seqs [.number, .lit [' ', 'گ', 'ھ', 'ن', 'ٹ', 'ہ', ' ', 'پ', 'ہ', 'ل', 'ے']], .seqs [.number, .lit [' ', 'گ', 'ھ', 'ن', 'ٹ', 'ے', ' ', 'پ', 'ہ', 'ل', 'ے']], .seqs [.number, .lit [' ', 'د', 'ن', 'و', 'ں', ' ', 'پ', 'ہ', 'ل', 'ے']], .seqs [.number, .lit [' ', 'س', 'ا', 'ل', 'و', 'ں', ' ', 'م', 'ی', 'ں']], .seqs [.number, .lit [' ', 'س', 'ی', 'ک', 'ن', 'ڈ', ' ', 'ق', 'ب', 'ل']], .seqs [.number, .lit [' ', 'س', 'ی', 'ک', 'ن', 'ڈ', ' ', 'م', 'ی', 'ں']], .seqs [.number, .lit [' ', 'م', 'ہ', 'ی', 'ن', 'ہ', ' ', 'م', 'ی', 'ں']], .seqs [.number, .lit [' ', 'م', 'ہ', 'ی', 'ن', 'ے', ' ', 'م', 'ی', 'ں']], .seqs [.number, .lit [' ', 'گ', 'ھ', 'ن', 'ٹ', 'ہ', ' ', 'ق', 'ب', 'ل']], .seqs [.number, .lit [' ', 'گ', 'ھ', 'ن', 'ٹ', 'ہ', ' ', 'م', 'ی', 'ں']], .seqs [.number, .lit [' ', 'گ', 'ھ', 'ن', 'ٹ', 'ے', ' ', 'ق', 'ب', 'ل']], .seqs [.number, .lit [' ', 'گ', 'ھ', 'ن', 'ٹ', 'ے', ' ', 'م', 'ی', 'ں']], .seqs [.number, .lit [' ', 'ہ', 'ف', 'ت', 'و', 'ں', ' ', 'م', 'ی', 'ں']], .seqs [.number, .lit [' ', 'ہ', 'ف', 'ت', 'ہ', ' ', 'پ', 'ہ', 'ل', 'ے']], .seqs [.number, .lit [' ', 'ہ', 'ف', 'ت', 'ے', ' ', 'پ', 'ہ', 'ل', 'ے']], .seqs [.number, .lit [' ', 'د', 'ن', 'و', 'ں', ' ', 'م', 'ی', 'ں']], .seqs [.number, .lit [' ', 'س', 'ا', 'ل', ' ', 'پ', 'ہ', 'ل', 'ے']], .seqs [.number, .lit [' ', 'م', 'ا', 'ہ', ' ', 'پ', 'ہ', 'ل', 'ے']], .seqs [.number, .lit [' ', 'م', 'ن', 'ٹ', ' ', 'پ', 'ہ', 'ل', 'ے']], .seqs [.number, .lit [' ', 'ہ', 'ف', 'ت', 'ہ', ' ', 'ق', 'ب', 'ل']], .seqs [.number, .lit [' ', 'ہ', 'ف', 'ت', 'ہ', ' ', 'م', 'ی', 'ں']], .seqs [.number, .lit [' ', 'ہ', 'ف', 'ت', 'ے', ' ', 'ق', 'ب', 'ل']], .seqs [.number, .lit [' ', 'ہ', 'ف', 'ت', 'ے', ' ', 'م', 'ی', 'ں']], .seqs [.number, .lit [' ', 'د', 'ن', ' ', 'پ', 'ہ', 'ل', 'ے']], .seqs [.number, .lit [' ', 'س', 'ا', 'ل', ' ', 'م', 'ی', 'ں']], .seqs [.number, .lit [' ', 'م', 'ا', 'ہ', ' ', 'ق', 'ب', 'ل']], .seqs [.number, .lit [' ', 'م', 'ا', 'ہ', ' ', 'م', 'ی', 'ں']], .seqs [.number, .lit [' ', 'م', 'ن', 'ٹ', ' ', 'ق', 'ب', 'ل']], .seqs [.number, .lit [' ', 'م', 'ن', 'ٹ', ' ', 'م', 'ی', 'ں']], .seqs [.number, .lit [' ', 'د', 'ن', ' ', 'ق', 'ب', 'ل']], .seqs [.number, .lit [' ', 'د', 'ن', ' ', 'م', 'ی', 'ں']]]), .eos]),
  knownWords :=
   [['پ', 'چ', 'ھ', 'ل', 'ے', ' ', 'م', 'ہ', 'ی', 'ن', 'ہ'], ['ا', 'گ', 'ل', 'ے', ' ', 'م', 'ہ', 'ی', 'ن', 'ہ'], ['پ', 'چ', 'ھ', 'ل', 'ے', ' ', 'ہ', 'ف', 'ت', 'ہ'], ['گ', 'ز', 'ش', 'ت', 'ہ', ' ', 'ہ', 'ف', 'ت', 'ہ'], ['ا', 'گ', 'ل', 'ے', ' ', 'ہ', 'ف', 'ت', 'ہ'], ['گ', 'ز', 'ش', 'ت', 'ہ', ' ', 'س', 'ا', 'ل'], ['گ', 'ز', 'ش', 'ت', 'ہ', ' ', 'م', 'ا', 'ہ'], ['ا', 'س', ' ', 'م', 'ہ', 'ی', 'ن', 'ہ'], ['ا', 'س', ' ', 'گ', 'ھ', 'ن', 'ٹ', 'ے'], ['ا', 'ي', 'ن', 'د', 'ہ', ' ', 'ک', 'ل'], ['ا', 'گ', 'ل', 'ے', ' ', 'س', 'ا', 'ل'], ['ا', 'گ', 'ل', 'ے', ' ', 'م', 'ا', 'ہ'], ['گ', 'ز', 'ش', 'ت', 'ہ', ' ', 'ک', 'ل'], ['ا', 'س', ' ', 'ہ', 'ف', 'ت', 'ہ'], ['ا', 'س', ' ', 'س', 'ا', 'ل'], ['ا', 'س', ' ', 'م', 'ا', 'ہ'], ['ا', 'س', ' ', 'م', 'ن', 'ٹ'], ['ا', 'ک', 'ت', 'و', 'ب', 'ر'], ['ج', 'م', 'ع', 'ر', 'ا', 'ت'], ['ج', 'و', 'ل', 'ا', 'ي', 'ی'], ['س', 'و', 'م', 'و', 'ا', 'ر'], ['ا', 'ت', 'و', 'ا', 'ر'], ['ا', 'پ', 'ر', 'ی', 'ل'], ['ج', 'ن', 'و', 'ر', 'ی'], ['د', 'س', 'م', 'ب', 'ر'], ['س', 'ت', 'م', 'ب', 'ر'], ['س', 'ی', 'ک', 'ن', 'ڈ'], ['ف', 'ر', 'و', 'ر', 'ی'], ['م', 'ہ', 'ی', 'ن', 'ہ'], ['ن', 'و', 'م', 'ب', 'ر'], ['گ', 'ھ', 'ن', 'ٹ', 'ہ'], ['ا', 'گ', 'س', 'ت'], ['ج', 'م', 'ع', 'ہ'], ['م', 'ا', 'ر', 'چ'], ['م', 'ن', 'گ', 'ل'], ['ہ', 'ف', 'ت', 'ہ'], ['g', 'm', 't'], ['u', 't', 'c'], ['ب', 'د', 'ھ'], ['ج', 'و', 'ن'], ['س', 'ا', 'ل'], ['م', 'ا', 'ہ'], ['م', 'ن', 'ٹ'], ['م', 'ي', 'ی'], ['پ', 'ی', 'ر'], ['a', 'm'], ['p', 'm'], ['ا', 'ب'], ['ا', 'ج'], ['د', 'ن'], [' '], ['\''], ['+'], [','], ['-'], ['.'], ['/'], [':'], [';'], ['@'], ['['], [']'], ['z'], ['|']] }

/-- internal/data/uz-arab.go: `uz_Arab_Locale`. -/
def uz_ArabLang : LangData := { uz_ArabDict with
  knownWords :=
   [['t', 'h', 'i', 's', ' ', 'm', 'i', 'n', 'u', 't', 'e'], ['l', 'a', 's', 't', ' ', 'm', 'o', 'n', 't', 'h'], ['n', 'e', 'x', 't', ' ', 'm', 'o', 'n', 't', 'h'], ['t', 'h', 'i', 's', ' ', 'm', 'o', 'n', 't', 'h'], ['l', 'a', 's', 't', ' ', 'w', 'e', 'e', 'k'], ['l', 'a', 's', 't', ' ', 'y', 'e', 'a', 'r'], ['n', 'e', 'x', 't', ' ', 'w', 'e', 'e', 'k'], ['n', 'e', 'x', 't', ' ', 'y', 'e', 'a', 'r'], ['t', 'h', 'i', 's', ' ', 'h', 'o', 'u', 'r'], ['t', 'h', 'i', 's', ' ', 'w', 'e', 'e', 'k'], ['t', 'h', 'i', 's', ' ', 'y', 'e', 'a', 'r'], ['y', 'e', 's', 't', 'e', 'r', 'd', 'a', 'y'], ['t', 'o', 'm', 'o', 'r', 'r', 'o', 'w'], ['چ', 'ه', 'ا', 'ر', 'ش', 'ن', 'ب', 'ه'], ['س', 'ه', (Char.ofNat 0x200c), 'ش', 'ن', 'ب', 'ه'], ['پ', 'ن', 'ج', 'ش', 'ن', 'ب', 'ه'], ['m', 'i', 'n', 'u', 't', 'e'], ['s', 'e', 'c', 'o', 'n', 'd'], ['ا', 'ک', 'ت', 'و', 'ب', 'ر'], ['د', 'و', 'ش', 'ن', 'ب', 'ه'], ['س', 'پ', 'ت', 'م', 'ب', 'ر'], ['ف', 'ب', 'ر', 'و', 'ر', 'ی'], ['ی', 'ک', 'ش', 'ن', 'ب', 'ه'], ['m', 'o', 'n', 't', 'h'], ['t', 'o', 'd', 'a', 'y'], ['ا', 'پ', 'ر', 'ی', 'ل'], ['ج', 'ن', 'و', 'ر', 'ی'], ['ج', 'و', 'ل', 'ا', 'ی'], ['د', 'س', 'م', 'ب', 'ر'], ['ن', 'و', 'م', 'ب', 'ر'], ['h', 'o', 'u', 'r'], ['w', 'e', 'e', 'k'], ['y', 'e', 'a', 'r'], ['ا', 'گ', 'س', 'ت'], ['ج', 'م', 'ع', 'ه'], ['ش', 'ن', 'ب', 'ه'], ['م', 'ا', 'ر', 'چ'], ['d', 'a', 'y'], ['g', 'm', 't'], ['n', 'o', 'w'], ['u', 't', 'c'], ['ا', 'پ', 'ر'], ['ا', 'ک', 'ت'], ['ا', 'گ', 'س'], ['ج', 'ن', 'و'], ['ج', 'و', 'ل'], ['ج', 'و', 'ن'], ['د', 'س', 'م'], ['س', 'پ', 'ت'], ['ف', 'ب', 'ر'], ['م', 'ا', 'ر'], ['ن', 'و', 'م'], ['a', 'm'], ['p', 'm'], ['م', 'ی'], [' '], ['\''], ['+'], [','], ['-'], ['.'], ['/'], [':'], [';'], ['@'], ['['], [']'], ['z'], ['|'], ['ج'], ['د'], ['س'], ['ش'], ['پ'], ['چ'], ['ی']] }

/-- internal/data/uz-cyrl.go: `uz_Cyrl_Locale`. -/
def uz_CyrlLang : LangData := { uz_CyrlDict with
  relativeRegexes :=
   [(.seqs [.grp 1 (.number), .lit [' '], .cls false [.rng 'Д' 'Д', .rng 'д' 'д', .rng 'ᲁ' 'ᲁ'], .cls false [.rng 'А' 'А', .rng 'а' 'а'], .cls false [.rng 'Қ' 'Қ', .rng 'қ' 'қ'], .cls false [.rng 'И' 'И', .rng 'и' 'и'], .cls false [.rng 'Қ' 'Қ', .rng 'қ' 'қ'], .cls false [.rng 'А' 'А', .rng 'а' 'а'], .cls false [.rng 'Д' 'Д', .rng 'д' 'д', .rng 'ᲁ' 'ᲁ'], .cls false [.rng 'А' 'А', .rng 'а' 'а'], .cls false [.rng 'Н' 'Н', .rng 'н' 'н'], .lit [' '], .cls false [.rng 'С' 'С', .rng 'с' 'с', .rng 'ᲃ' 'ᲃ'], .cls false [.rng 'У' 'У', .rng 'у' 'у'], .cls false [.rng 'Н' 'Н', .rng 'н' 'н'], .cls false [.rng 'Г' 'Г', .rng 'г' 'г']], [.lit ['i', 'n', ' '], .ref 1, .lit [' ', 'm', 'i', 'n', 'u', 't', 'e']]),
    (.seqs [.grp 1 (.number), .lit [' '], .cls false [.rng 'С' 'С', .rng 'с' 'с', .rng 'ᲃ' 'ᲃ'], .cls false [.rng 'О' 'О', .rng 'о' 'о', .rng 'ᲂ' 'ᲂ'], .cls false [.rng 'Н' 'Н', .rng 'н' 'н'], .cls false [.rng 'И' 'И', .rng 'и' 'и'], .cls false [.rng 'Я' 'Я', .rng 'я' 'я'], .cls false [.rng 'Д' 'Д', .rng 'д' 'д', .rng 'ᲁ' 'ᲁ'], .cls false [.rng 'А' 'А', .rng 'а' 'а'], .cls false [.rng 'Н' 'Н', .rng 'н' 'н'], .lit [' '], .cls false [.rng 'С' 'С', .rng 'с' 'с', .rng 'ᲃ' 'ᲃ'], .cls false [.rng 'У' 'У', .rng 'у' 'у'], .cls false [.rng 'Н' 'Н', .rng 'н' 'н'], .cls false [.rng 'Г' 'Г', .rng 'г' 'г']], [.lit ['i', 'n', ' '], .ref 1, .lit [' ', 's', 'e', 'c', 'o', 'n', 'd']]),
    (.seqs [.grp 1 (.number), .lit [' '], .cls false [.rng 'Ҳ' 'Ҳ', .rng 'ҳ' 'ҳ'], .cls false [.rng 'А' 'А', .rng 'а' 'а'], .cls false [.rng 'Ф' 'Ф', .rng 'ф' 'ф'], .cls false [.rng 'Т' 'Т', .rng 'т' 'т', .rng 'ᲄ' 'ᲄ', .rng 'ᲅ' 'ᲅ'], .cls false [.rng 'А' 'А', .rng 'а' 'а'], .cls false [.rng 'Д' 'Д', .rng 'д' 'д', .rng 'ᲁ' 'ᲁ'], .cls false [.rng 'А' 'А', .rng 'а' 'а'], .cls false [.rng 'Н' 'Н', .rng 'н' 'н'], .lit [' '], .cls false [.rng 'С' 'С', .rng 'с' 'с', .rng 'ᲃ' 'ᲃ'], .cls false [.rng 'У' 'У', .rng 'у' 'у'], .cls false [.rng 'Н' 'Н', .rng 'н' 'н'], .cls false [.rng 'Г' 'Г', .rng 'г' 'г']], [.lit ['i', 'n', ' '], .ref 1, .lit [' ', 'w', 'e', 'e', 'k']]),
    (.seqs [.grp 1 (.number), .lit [' '], .cls false [.rng 'Д' 'Д', .rng 'д' 'д', .rng 'ᲁ' 'ᲁ'], .cls false [.rng 'А' 'А', .rng 'а' 'а'], .cls false [.rng 'Қ' 'Қ', .rng 'қ' 'қ'], .cls false [.rng 'И' 'И', .rng 'и' 'и'], .cls false [.rng 'Қ' 'Қ', .rng 'қ' 'қ'], .cls false [.rng 'А' 'А', .rng 'а' 'а'], .lit [' '], .cls false [.rng 'О' 'О', .rng 'о' 'о', .rng 'ᲂ' 'ᲂ'], .cls false [.rng 'Л' 'Л', .rng 'л' 'л'], .cls false [.rng 'Д' 'Д', .rng 'д' 'д', .rng 'ᲁ' 'ᲁ'], .cls false [.rng 'И' 'И', .rng 'и' 'и'], .cls false [.rng 'Н' 'Н', .rng 'н' 'н']], [.ref 1, .lit [' ', 'm', 'i', 'n', 'u', 't', 'e', ' ', 'a', 'g', 'o']]),
    (.seqs [.grp 1 (.number), .lit [' '], .cls false [.rng 'С' 'С', .rng 'с' 'с', .rng 'ᲃ' 'ᲃ'], .cls false [.rng 'О' 'О', .rng 'о' 'о', .rng 'ᲂ' 'ᲂ'], .cls false [.rng 'А' 'А', .rng 'а' 'а'], .cls false [.rng 'Т' 'Т', .rng 'т' 'т', .rng 'ᲄ' 'ᲄ', .rng 'ᲅ' 'ᲅ'], .cls false [.rng 'Д' 'Д', .rng 'д' 'д', .rng 'ᲁ' 'ᲁ'], .cls false [.rng 'А' 'А', .rng 'а' 'а'], .cls false [.rng 'Н' 'Н', .rng 'н' 'н'], .lit [' '], .cls false [.rng 'С' 'С', .rng 'с' 'с', .rng 'ᲃ' 'ᲃ'], .cls false [.rng 'У' 'У', .rng 'у' 'у'], .cls false [.rng 'Н' 'Н', .rng 'н' 'н'], .cls false [.rng 'Г' 'Г', .rng 'г' 'г']], [.lit ['i', 'n', ' '], .ref 1, .lit [' ', 'h', 'o', 'u', 'r']]),
    (.seqs [.grp 1 (.number), .lit [' '], .cls false [.rng 'И' 'И', .rng 'и' 'и'], .cls false [.rng 'И' 'И', .rng 'и' 'и'], .cls false [.rng 'Л' 'Л', .rng 'л' 'л'], .cls false [.rng 'Д' 'Д', .rng 'д' 'д', .rng 'ᲁ' 'ᲁ'], .cls false [.rng 'А' 'А', .rng 'а' 'а'], .cls false [.rng 'Н' 'Н', .rng 'н' 'н'], .lit [' '], .cls false [.rng 'С' 'С', .rng 'с' 'с', .rng 'ᲃ' 'ᲃ'], .cls false [.rng 'У' 'У', .rng 'у' 'у'], .cls false [.rng 'Н' 'Н', .rng 'н' 'н'], .cls false [.rng 'Г' 'Г', .rng 'г' 'г']], [.lit ['i', 'n', ' '], .ref 1, .lit [' ', 'y', 'e', 'a', 'r']]),
    (.seqs [.grp 1 (.number), .lit [' '], .cls false [.rng 'К' 'К', .rng 'к' 'к'], .cls false [.rng 'У' 'У', .rng 'у' 'у'], .cls false [.rng 'Н' 'Н', .rng 'н' 'н'], .cls false [.rng 'Д' 'Д', .rng 'д' 'д', .rng 'ᲁ' 'ᲁ'], .cls false [.rng 'А' 'А', .rng 'а' 'а'], .cls false [.rng 'Н' 'Н', .rng 'н' 'н'], .lit [' '], .cls false [.rng 'С' 'С', .rng 'с' 'с', .rng 'ᲃ' 'ᲃ'], .cls false [.rng 'У' 'У', .rng 'у' 'у'], .cls false [.rng 'Н' 'Н', .rng 'н' 'н'], .cls false [.rng 'Г' 'Г', .rng 'г' 'г']], [.lit ['i', 'n', ' '], .ref 1, .lit [' ', 'd', 'a', 'y']]),
    (.seqs [.grp 1 (.number), .lit [' '], .cls false [.rng 'С' 'С', .rng 'с' 'с', .rng 'ᲃ' 'ᲃ'], .cls false [.rng 'О' 'О', .rng 'о' 'о', .rng 'ᲂ' 'ᲂ'], .cls false [.rng 'Н' 'Н', .rng 'н' 'н'], .cls false [.rng 'И' 'И', .rng 'и' 'и'], .cls false [.rng 'Я' 'Я', .rng 'я' 'я'], .lit [' '], .cls false [.rng 'О' 'О', .rng 'о' 'о', .rng 'ᲂ' 'ᲂ'], .cls false [.rng 'Л' 'Л', .rng 'л' 'л'], .cls false [.rng 'Д' 'Д', .rng 'д' 'д', .rng 'ᲁ' 'ᲁ'], .cls false [.rng 'И' 'И', .rng 'и' 'и'], .cls false [.rng 'Н' 'Н', .rng 'н' 'н']], [.ref 1, .lit [' ', 's', 'e', 'c', 'o', 'n', 'd', ' ', 'a', 'g', 'o']]),
    (.seqs [.grp 1 (.number), .lit [' '], .cls false [.rng 'Ҳ' 'Ҳ', .rng 'ҳ' 'ҳ'], .cls false [.rng 'А' 'А', .rng 'а' 'а'], .cls false [.rng 'Ф' 'Ф', .rng 'ф' 'ф'], .cls false [.rng 'Т' 'Т', .rng 'т' 'т', .rng 'ᲄ' 'ᲄ', .rng 'ᲅ' 'ᲅ'], .cls false [.rng 'А' 'А', .rng 'а' 'а'], .lit [' '], .cls false [.rng 'О' 'О', .rng 'о' 'о', .rng 'ᲂ' 'ᲂ'], .cls false [.rng 'Л' 'Л', .rng 'л' 'л'], .cls false [.rng 'Д' 'Д', .rng 'д' 'д', .rng 'ᲁ' 'ᲁ'], .cls false [.rng 'И' 'И', .rng 'и' 'и'], .cls false [.rng 'Н' 'Н', .rng 'н' 'н']], [.ref 1, .lit [' ', 'w', 'e', 'e', 'k', ' ', 'a', 'g', 'o']]),
    (.seqs [.grp 1 (.number), .lit [' '], .cls false [.rng 'О' 'О', .rng 'о' 'о', .rng 'ᲂ' 'ᲂ'], .cls false [.rng 'И' 'И', .rng 'и' 'и'], .cls false [.rng 'Д' 'Д', .rng 'д' 'д', .rng 'ᲁ' 'ᲁ'], .cls false [.rng 'А' 'А', .rng 'а' 'а'], .cls false [.rng 'Н' 'Н', .rng 'н' 'н'], .lit [' '], .cls false [.rng 'С' 'С', .rng 'с' 'с', .rng 'ᲃ' 'ᲃ'], .cls false [.rng 'У' 'У', .rng 'у' 'у'], .cls false [.rng 'Н' 'Н', .rng 'н' 'н'], .cls false [.rng 'Г' 'Г', .rng 'г' 'г']], [.lit ['i', 'n', ' '], .ref 1, .lit [' ', 'm', 'o', 'n', 't', 'h']]),
    (.seqs [.grp 1 (.number), .lit [' '], .cls false [.rng 'С' 'С', .rng 'с' 'с', .rng 'ᲃ' 'ᲃ'], .cls false [.rng 'О' 'О', .rng 'о' 'о', .rng 'ᲂ' 'ᲂ'], .cls false [.rng 'А' 'А', .rng 'а' 'а'], .cls false [.rng 'Т' 'Т', .rng 'т' 'т', .rng 'ᲄ' 'ᲄ', .rng 'ᲅ' 'ᲅ'], .lit [' '], .cls false [.rng 'О' 'О', .rng 'о' 'о', .rng 'ᲂ' 'ᲂ'], .cls false [.rng 'Л' 'Л', .rng 'л' 'л'], .cls false [.rng 'Д' 'Д', .rng 'д' 'д', .rng 'ᲁ' 'ᲁ'], .cls false [.rng 'И' 'И', .rng 'и' 'и'], .cls false [.rng 'Н' 'Н', .rng 'н' 'н']], [.ref 1, .lit [' ', 'h', 'o', 'u', 'r', ' ', 'a', 'g', 'o']]),
    (.seqs [.grp 1 (.number), .lit [' '], .cls false [.rng 'И' 'И', .rng 'и' 'и'], .cls false [.rng 'И' 'И', .rng 'и' 'и'], .cls false [.rng 'Л' 'Л', .rng 'л' 'л'], .lit [' '], .cls false [.rng 'А' 'А', .rng 'а' 'а'], .cls false [.rng 'В' 'В', .rng 'в' 'в', .rng 'ᲀ' 'ᲀ'], .cls false [.rng 'В' 'В', .rng 'в' 'в', .rng 'ᲀ' 'ᲀ'], .cls false [.rng 'А' 'А', .rng 'а' 'а'], .cls false [.rng 'Л' 'Л', .rng 'л' 'л']], [.ref 1, .lit [' ', 'y', 'e', 'a', 'r', ' ', 'a', 'g', 'o']]),
    (.seqs [.grp 1 (.number), .lit [' '], .cls false [.rng 'К' 'К', .rng 'к' 'к'], .cls false [.rng 'У' 'У', .rng 'у' 'у'], .cls false [.rng 'Н' 'Н', .rng 'н' 'н'], .lit [' '], .cls false [.rng 'О' 'О', .rng 'о' 'о', .rng 'ᲂ' 'ᲂ'], .cls false [.rng 'Л' 'Л', .rng 'л' 'л'], .cls false [.rng 'Д' 'Д', .rng 'д' 'д', .rng 'ᲁ' 'ᲁ'], .cls false [.rng 'И' 'И', .rng 'и' 'и'], .cls false [.rng 'Н' 'Н', .rng 'н' 'н']], [.ref 1, .lit [' ', 'd', 'a', 'y', ' ', 'a', 'g', 'o']]),
    (.seqs [.grp 1 (.number), .lit [' '], .cls false [.rng 'О' 'О', .rng 'о' 'о', .rng 'ᲂ' 'ᲂ'], .cls false [.rng 'И' 'И', .rng 'и' 'и'], .lit [' '], .cls false [.rng 'А' 'А', .rng 'а' 'а'], .cls false [.rng 'В' 'В', .rng 'в' 'в', .rng 'ᲀ' 'ᲀ'], .cls false [.rng 'В' 'В', .rng 'в' 'в', .rng 'ᲀ' 'ᲀ'], .cls false [.rng 'А' 'А', .rng 'а' 'а'], .cls false [.rng 'Л' 'Л', .rng 'л' 'л']], [.ref 1, .lit [' ', 'm', 'o', 'n', 't', 'h', ' ', 'a', 'g', 'o']])],
  rxCombined := some (.seqs [.grp 1 (.alts [.bos, .cls true [.letter, .mark, .digit], .lit ['_']]), .grp 2 (.alts [.seqs [.number, .lit [' '], .cls false [.rng 'Д' 'Д', .rng 'д' 'д', .rng 'ᲁ' 'ᲁ'], .cls false [.rng 'А' 'А', .rng 'а' 'а'], .cls false [.rng 'Қ' 'Қ', .rng 'қ' 'қ'], .cls false [.rng 'И' 'И', .rng 'и' 'и'], .cls false [.rng 'Қ' 'Қ', .rng 'қ' 'қ'], .cls false [.rng 'А' 'А', .rng 'а' 'а'], .cls false [.rng 'Д' 'Д', .rng 'д' 'д', .rng 'ᲁ' 'ᲁ'], .cls false [.rng 'А' 'А', .rng 'а' 'а'], .cls false [.rng 'Н' 'Н', .rng 'н' 'н'], .lit [' '], .cls false [.rng 'С' 'С', .rng 'с' 'с', .rng 'ᲃ' 'ᲃ'], .cls false [.rng 'У' 'У', .rng 'у' 'у'], .cls false [.rng 'Н' 'Н', .rng 'н' 'н'], .cls false [.rng 'Г' 'Г', .rng 'г' 'г']], .seqs [.number, .lit [' '], .cls false [.rng 'С' 'С', .rng 'с' 'с', .rng 'ᲃ' 'ᲃ'], .cls false [.rng 'О' 'О', .rng 'о' 'о', .rng 'ᲂ' 'ᲂ'], .cls false [.rng 'Н' 'Н', .rng 'н' 'н'], .cls false [.rng 'И' 'И', .rng 'и' 'и'], .cls false [.rng 'Я' 'Я', .rng 'я' 'я'], .cls false [.rng 'Д' 'Д', .rng 'д' 'д', .rng 'ᲁ' 'ᲁ'], .cls false [.rng 'А' 'А', .rng 'а' 'а'], .cls false [.rng 'Н' 'Н', .rng 'н' 'н'], .lit [' '], .cls false [.rng 'С' 'С', .rng 'с' 'с', .rng 'ᲃ' 'ᲃ'], .cls false [.rng 'У' 'У', .rng 'у' 'у'], .cls false [.rng 'Н' 'Н', .rng 'н' 'н'], .cls false [.rng 'Г' 'Г', .rng 'г' 'г']], .seqs [.number, .lit [' '], .cls false [.rng 'Ҳ' 'Ҳ', .rng 'ҳ' 'ҳ'], .cls false [.rng 'А' 'А', .rng 'а' 'а'], .cls false [.rng 'Ф' 'Ф', .rng 'ф' 'ф'], .cls false [.rng 'Т' 'Т', .rng 'т' 'т', .rng 'ᲄ' 'ᲄ', .rng 'ᲅ' 'ᲅ'], .cls false [.rng 'А' 'А', .rng 'а' 'а'], .cls false [.rng 'Д' 'Д', .rng 'д' 'д', .rng 'ᲁ' 'ᲁ'], .cls false [.rng 'А' 'А', .rng 'а' 'а'], .cls false [.rng 'Н' 'Н', .rng 'н' 'н'], .lit [' '], .cls false [.rng 'С' 'С', .rng 'с' 'с', .rng 'ᲃ' 'ᲃ'], .cls false [.rng 'У' 'У', .rng 'у' 'у'], .cls false [.rng 'Н' 'Н', .rng 'н' 'н'], .cls false [.rng 'Г' 'Г', .rng 'г' 'г']], .seqs [.number, .lit [' '], .cls false [.rng 'Д' 'Д', .rng 'д' 'д', .rng 'ᲁ' 'ᲁ'], .cls false [.rng 'А' 'А', .rng 'а' 'а'], .cls false [.rng 'Қ' 'Қ', .rng 'қ' 'қ'], .cls false [.rng 'И' 'И', .rng 'и' 'и'], .cls false [.rng 'Қ' 'Қ', .rng 'қ' 'қ'], .cls false [.rng 'А' 'А', .rng 'а' 'а'], .lit [' '], .cls false [.rng 'О' 'О', .rng 'о' 'о', .rng 'ᲂ' 'ᲂ'], .cls false [.rng 'Л' 'Л', .rng 'л' 'л'], .cls false [.rng 'Д' 'Д', .rng 'д' 'д', .rng 'ᲁ' 'ᲁ'], .cls false [.rng 'И' 'И', .rng 'и' 'и'], .cls false [.rng 'Н' 'Н', .rng 'н' 'н']], .seqs [.number, .lit [' '], .cls false [.rng 'С' 'С', .rng 'с' 'с', .rng 'ᲃ' 'ᲃ'], .cls false [.rng 'О' 'О', .rng 'о' 'о', .rng 'ᲂ' 'ᲂ'], .cls false [.rng 'А' 'А', .rng 'а' 'а'], .cls false [.rng 'Т' 'Т', .rng 'т' 'т', .rng 'ᲄ' 'ᲄ', .rng 'ᲅ' 'ᲅ'], .cls false [.rng 'Д' 'Д', .rng 'д' 'д', .rng 'ᲁ' 'ᲁ'], .cls false [.rng 'А' 'А', .rng 'а' 'а'], .cls false [.rng 'Н' 'Н', .rng 'н' 'н'], .lit [' '], .cls false [.rng 'С' 'С', .rng 'с' 'с', .rng 'ᲃ' 'ᲃ'], .cls false [.rng 'У' 'У', .rng 'у' 'у'], .cls false [.rng 'Н' 'Н', .rng 'н' 'н'], .cls false [.rng 'Г' 'Г', .rng 'г' 'г']], .seqs [.number, .lit [' '], .cls false [.rng 'И' 'И', .rng 'и' 'и'], .cls false [.rng 'И' 'И', .rng 'и' 'и'], .cls false [.rng 'Л' 'Л', .rng 'л' 'л'], .cls false [.rng 'Д' 'Д', .rng 'д' 'д', .rng 'ᲁ' 'ᲁ'], .cls false [.rng 'А' 'А', .rng 'а' 'а'], .cls false [.rng 'Н' 'Н', .rng 'н' 'н'], .lit [' '], .cls false [.rng 'С' 'С', .rng 'с' 'с', .rng 'ᲃ' 'ᲃ'], .cls false [.rng 'У' 'У', .rng 'у' 'у'], .cls false [.rng 'Н' 'Н', .rng 'н' 'н'], .cls false [.rng 'Г' 'Г', .rng 'г' 'г']], .seqs [.number, .lit [' '], .cls false [.rng 'К' 'К', .rng 'к' 'к'], .cls false [.rng 'У' 'У', .rng 'у' 'у'], .cls false [.rng 'Н' 'Н', .rng 'н' 'н'], .cls false [.rng 'Д' 'Д', .rng 'д' 'д', .rng 'ᲁ' 'ᲁ'], .cls false [.rng 'А' 'А', .rng 'а' 'а'], .cls false [.rng 'Н' 'Н', .rng 'н' 'н'], .lit [' '], .cls false [.rng 'С' 'С', .rng 'с' 'с', .rng 'ᲃ' 'ᲃ'], .cls false [.rng 'У' 'У', .rng 'у' 'у'], .cls false [.rng 'Н' 'Н', .rng 'н' 'н'], .cls false [.rng 'Г' 'Г', .rng 'г' 'г']], .seqs [.number, .lit [' '], .cls false [.rng 'С' 'С', .rng 'с' 'с', .rng 'ᲃ' 'ᲃ'], .cls false [.rng 'О' 'О', .rng 'о' 'о', .rng 'ᲂ' 'ᲂ'], .cls false [.rng 'Н' 'Н', .rng 'н' 'н'], .cls false [.rng 'И' 'И', .rng 'и' 'и'], .cls false [.rng 'Я' 'Я', .rng 'я' 'я'], .lit [' '], .cls false [.rng 'О' 'О', .rng 'о' 'о', .rng 'ᲂ' 'ᲂ'], .cls false [.rng 'Л' 'Л', .rng 'л' 'л'], .cls false [.rng 'Д' 'Д', .rng 'д' 'д', .rng 'ᲁ' 'ᲁ'], .cls false [.rng 'И' 'И', .rng 'и' 'и'], .cls false [.rng 'Н' 'Н', .rng 'н' 'н']], .seqs [.number, .lit [' '], .cls false [.rng 'Ҳ' 'Ҳ', .rng 'ҳ' 'ҳ'], .cls false [.rng 'А' 'А', .rng 'а' 'а'], .cls false [.rng 'Ф' 'Ф', .rng 'ф' 'ф'], .cls false [.rng 'Т' 'Т', .rng 'т' 'т', .rng 'ᲄ' 'ᲄ', .rng 'ᲅ' 'ᲅ'], .cls false [.rng 'А' 'А', .rng 'а' 'а'], .lit [' '], .cls false [.rng 'О' 'О', .rng 'о' 'о', .rng 'ᲂ' 'ᲂ'], .cls false [.rng 'Л' 'Л', .rng 'л' 'л'], .cls false [.rng 'Д' 'Д', .rng 'д' 'д', .rng 'ᲁ' 'ᲁ'], .cls false [.rng 'И' 'И', .rng 'и' 'и'], .cls false [.rng 'Н' 'Н', .rng 'н' 'н']], .seqs [.number, .lit [' '], .cls false [.rng 'О' 'О', .rng 'о' 'о', .rng 'ᲂ' 'ᲂ'], .cls false [.rng 'И' 'И', .rng 'и' 'и'], .cls false [.rng 'Д' 'Д', .rng 'д' 'д', .rng 'ᲁ' 'ᲁ'], .cls false [.rng 'А' 'А', .rng 'а' 'а'], .cls false [.rng 'Н' 'Н', .rng 'н' 'н'], .lit [' '], .cls false [.rng 'С' 'С', .rng 'с' 'с', .rng 'ᲃ' 'ᲃ'], .cls false [.rng 'У' 'У', .rng 'у' 'у'], .cls false [.rng 'Н' 'Н', .rng 'н' 'н'], .cls false [.rng 'Г' 'Г', .rng 'г' 'г']], .seqs [.number, .lit [' '], .cls false [.rng 'С' 'С', .rng 'с' 'с', .rng 'ᲃ' 'ᲃ'], .cls false [.rng 'О' 'О', .rng 'о' 'о', .rng 'ᲂ' 'ᲂ'], .cls false [.rng 'А' 'А', .rng 'а' 'а'], .cls false [.rng 'Т' 'Т', .rng 'т' 'т', .rng 'ᲄ' 'ᲄ', .rng 'ᲅ' 'ᲅ'], .lit [' '], .cls false [.rng 'О' 'О', .rng 'о' 'о', .rng 'ᲂ' 'ᲂ'], .cls false [.rng 'Л' 'Л', .rng 'л' 'л'], .cls false [.rng 'Д' 'Д', .rng 'д' 'д', .rng 'ᲁ' 'ᲁ'], .cls false [.rng 'И' 'И', .rng 'и' 'и'], .cls false [.rng 'Н' 'Н', .rng 'н' 'н']], .seqs [.number, .lit [' '], .cls false [.rng 'И' 'И', .rng 'и' 'и'], .cls false [.rng 'И' 'И', .rng 'и' 'и'], .cls false [.rng 'Л' 'Л', .rng 'л' 'л'], .lit [' '], .cls false [.rng 'А' 'А', .rng 'а' 'а'], .cls false [.rng 'В' 'В', .rng 'в' 'в', .rng 'ᲀ' 'ᲀ'], .cls false [.rng 'В' 'В', .rng 'в' 'в', .rng 'ᲀ' 'ᲀ'], .cls false [.rng 'А' 'А', .rng 'а' 'а'], .cls false [.rng 'Л' 'Л', .rng 'л' 'л']], .seqs [.number, .lit [' '], .cls false [.rng 'К' 'К', .rng 'к' 'к'], .cls false [.rng 'У' 'У', .rng 'у' 'у'], .cls false [.rng 'Н' 'Н', .rng 'н' 'н'], .lit [' '], .cls false [.rng 'О' 'О', .rng 'о' 'о', .rng 'ᲂ' 'ᲂ'], .cls false [.rng 'Л' 'Л', .rng 'л' 'л'], .cls false [.rng 'Д' 'Д', .rng 'д' 'д', .rng 'ᲁ' 'ᲁ'], .cls false [.rng 'И' 'И', .rng 'и' 'и'], .cls false [.rng 'Н' 'Н', .rng 'н' 'н']], .seqs [.number, .lit [' '], .cls false [.rng 'О' 'О', .rng 'о' 'о', .rng 'ᲂ' 'ᲂ'], .cls false [.rng 'И' 'И', .rng 'и' 'и'], .lit [' '], .cls false [.rng 'А' 'А', .rng 'а' 'а'], .cls false [.rng 'В' 'В', .rng 'в' 'в', .rng 'ᲀ' 'ᲀ'], .cls false [.rng 'В' 'В', .rng 'в' 'в', .rng 'ᲀ' 'ᲀ'], .cls false [.rng 'А' 'А', .rng 'а' 'а'], .cls false [.rng 'Л' 'Л', .rng 'л' 'л']]]), .grp 3 (.alts [.eos, .cls true [.letter, .mark, .digit], .lit ['_']])], 3),
  rxExact := some (.seqs [.bos, .grp 1 (.alts [.seqs [.number, .lit [' '], .cls false [.rng 'Д' 'Д', .rng 'д' 'д', .rng 'ᲁ' 'ᲁ'], .cls false [.rng 'А' 'А', .rng 'а' 'а'], .cls false [.rng 'Қ' 'Қ', .rng 'қ' 'қ'], .cls false [.rng 'И' 'И', .rng 'и' 'и'], .cls false [.rng 'Қ' 'Қ', .rng 'қ' 'қ'], .cls false [.rng 'А' 'А', .rng 'а' 'а'], .cls false [.rng 'Д' 'Д', .rng 'д' 'д', .rng 'ᲁ' 'ᲁ'], .cls false [.rng 'А' 'А', .rng 'а' 'а'], .cls false [.rng 'Н' 'Н', .rng 'н' 'н'], .lit [' '], .cls false [.rng 'С' 'С', .rng 'с' 'с', .rng 'ᲃ' 'ᲃ'], .cls false [.rng 'У' 'У', .rng 'у' 'у'], .cls false [.rng 'Н' 'Н', .rng 'н' 'н'], .cls false [.rng 'Г' 'Г', .rng 'г' 'г']], .seqs [.number, .lit [' '], .cls false [.rng 'С' 'С', .rng 'с' 'с', .rng 'ᲃ' 'ᲃ'], .cls false [.rng 'О' 'О', .rng 'о' 'о', .rng 'ᲂ' 'ᲂ'], .cls false [.rng 'Н' 'Н', .rng 'н' 'н'], .cls false [.rng 'И' 'И', .rng 'и' 'и'], .cls false [.rng 'Я' 'Я', .rng 'я' 'я'], .cls false [.rng 'Д' 'Д', .rng 'д' 'д', .rng 'ᲁ' 'ᲁ'], .cls false [.rng 'А' 'А', .rng 'а' 'а'], .cls false [.rng 'Н' 'Н', .rng 'н' 'н'], .lit [' '], .cls false [.rng 'С' 'С', .rng 'с' 'с', .rng 'ᲃ' 'ᲃ'], .cls false [.rng 'У' 'У', .rng 'у' 'у'], .cls false [.rng 'Н' 'Н', .rng 'н' 'н'], .cls false [.rng 'Г' 'Г', .rng 'г' 'г']], .seqs [.number, .lit [' '], .cls false [.rng 'Ҳ' 'Ҳ', .rng 'ҳ' 'ҳ'], .cls false [.rng 'А' 'А', .rng 'а' 'а'], .cls false [.rng 'Ф' 'Ф', .rng 'ф' 'ф'], .cls false [.rng 'Т' 'Т', .rng 'т' 'т', .rng 'ᲄ' 'ᲄ', .rng 'ᲅ' 'ᲅ'], .cls false [.rng 'А' 'А', .rng 'а' 'а'], .cls false [.rng 'Д' 'Д', .rng 'д' 'д', .rng 'ᲁ' 'ᲁ'], .cls false [.rng 'А' 'А', .rng 'а' 'а'], .cls false [.rng 'Н' 'Н', .rng 'н' 'н'], .lit [' '], .cls false [.rng 'С' 'С', .rng 'с' 'с', .rng 'ᲃ' 'ᲃ'], .cls false [.rng 'У' 'У', .rng 'у' 'у'], .cls false [.rng 'Н' 'Н', .rng 'н' 'н'], .cls false [.rng 'Г' 'Г', .rng 'г' 'г']], .seqs [.number, .lit [' '], .cls false [.rng 'Д' 'Д', .rng 'д' 'д', .rng 'ᲁ' 'ᲁ'], .cls false [.rng 'А' 'А', .rng 'а' 'а'], .cls false [.rng 'Қ' 'Қ', .rng 'қ' 'қ'], .cls false [.rng 'И' 'И', .rng 'и' 'и'], .cls false [.rng 'Қ' 'Қ', .rng 'қ' 'қ'], .cls false [.rng 'А' 'А', .rng 'а' 'а'], .lit [' '], .cls false [.rng 'О' 'О', .rng 'о' 'о', .rng 'ᲂ' 'ᲂ'], .cls false [.rng 'Л' 'Л', .rng 'л' 'л'], .cls false [.rng 'Д' 'Д', .rng 'д' 'д', .rng 'ᲁ' 'ᲁ'], .cls false [.rng 'И' 'И', .rng 'и' 'и'], .cls false [.rng 'Н' 'Н', .rng 'н' 'н']], .seqs [.number, .lit [' '], .cls false [.rng 'С' 'С', .rng 'с' 'с', .rng 'ᲃ' 'ᲃ'], .cls false [.rng 'О' 'О', .rng 'о' 'о', .rng 'ᲂ' 'ᲂ'], .cls false [.rng 'А' 'А', .rng 'а' 'а'], .cls false [.rng 'Т' 'Т', .rng 'т' 'т', .rng 'ᲄ' 'ᲄ', .rng 'ᲅ' 'ᲅ'], .cls false [.rng 'Д' 'Д', .rng 'д' 'д', .rng 'ᲁ' 'ᲁ'], .cls false [.rng 'А' 'А', .rng 'а' 'а'], .cls false [.rng 'Н' 'Н', .rng 'н' 'н'], .lit [' '], .cls false [.rng 'С' 'С', .rng 'с' 'с', .rng 'ᲃ' 'ᲃ'], .cls false [.rng 'У' 'У', .rng 'у' 'у'], .cls false [.rng 'Н' 'Н', .rng 'н' 'н'], .cls false [.rng 'Г' 'Г', .rng 'г' 'г']], .seqs [.number, .lit [' '], .cls false [.rng 'И' 'И', .rng 'и' 'и'], .cls false [.rng 'И' 'И', .rng 'и' 'и'], .cls false [.rng 'Л' 'Л', .rng 'л' 'л'], .cls false [.rng 'Д' 'Д', .rng 'д' 'д', .rng 'ᲁ' 'ᲁ'], .cls false [.rng 'А' 'А', .rng 'а' 'а'], .cls false [.rng 'Н' 'Н', .rng 'н' 'н'], .lit [' '], .cls false [.rng 'С' 'С', .rng 'с' 'с', .rng 'ᲃ' 'ᲃ'], .cls false [.rng 'У' 'У', .rng 'у' 'у'], .cls false [.rng 'Н' 'Н', .rng 'н' 'н'], .cls false [.rng 'Г' 'Г', .rng 'г' 'г']], .seqs [.number, .lit [' '], .cls false [.rng 'К' 'К', .rng 'к' 'к'], .cls false [.rng 'У' 'У', .rng 'у' 'у'], .cls false [.rng 'Н' 'Н', .rng 'н' 'н'], .cls false [.rng 'Д' 'Д', .rng 'д' 'д', .rng 'ᲁ' 'ᲁ'], .cls false [.rng 'А' 'А', .rng 'а' 'а'], .cls false [.rng 'Н' 'Н', .rng 'н' 'н'], .lit [' '], .cls false [.rng 'С' 'С', .rng 'с' 'с', .rng 'ᲃ' 'ᲃ'], .cls false [.rng 'У' 'У', .rng 'у' 'у'], .cls false [.rng 'Н' 'Н', .rng 'н' 'н'], .cls false [.rng 'Г' 'Г', .rng 'г' 'г']], .seqs [.number, .lit [' '], .cls false [.rng 'С' 'С', .rng 'с' 'с', .rng 'ᲃ' 'ᲃ'], .cls false [.rng 'О' 'О', .rng 'о' 'о', .rng 'ᲂ' 'ᲂ'], .cls false [.rng 'Н' 'Н', .rng 'н' 'н'], .cls false [.rng 'И' 'И', .rng 'и' 'и'], .cls false [.rng 'Я' 'Я', .rng 'я' 'я'], .lit [' '], .cls false [.rng 'О' 'О', .rng 'о' 'о', .rng 'ᲂ' 'ᲂ'], .cls false [.rng 'Л' 'Л', .rng 'л' 'л'], .cls false [.rng 'Д' 'Д', .rng 'д' 'д', .rng 'ᲁ' 'ᲁ'], .cls false [.rng 'И' 'И', .rng 'и' 'и'], .cls false [.rng 'Н' 'Н', .rng 'н' 'н']], .seqs [.number, .lit [' '], .cls false [.rng 'Ҳ' 'Ҳ', .rng 'ҳ' 'ҳ'], .cls false [.rng 'А' 'А', .rng 'а' 'а'], .cls false [.rng 'Ф' 'Ф', .rng 'ф' 'ф'], .cls false [.rng 'Т' 'Т', .rng 'т' 'т', .rng 'ᲄ' 'ᲄ', .rng 'ᲅ' 'ᲅ'], .cls false [.rng 'А' 'А', .rng 'а' 'а'], .lit [' '], .cls false [.rng 'О' 'О', .rng 'о' 'о', .rng 'ᲂ' 'ᲂ'], .cls false [.rng 'Л' 'Л', .rng 'л' 'л'], .cls false [.rng 'Д' 'Д', .rng 'д' 'д', .rng 'ᲁ' 'ᲁ'], .cls false [.rng 'И' 'И', .rng 'и' 'и'], .cls false [.rng 'Н' 'Н', .rng 'н' 'н']], .seqs [.number, .lit [' '], .cls false [.rng 'О' 'О', .rng 'о' 'о', .rng 'ᲂ' 'ᲂ'], .cls false [.rng 'И' 'И', .rng 'и' 'и'], .cls false [.rng 'Д' 'Д', .rng 'д' 'д', .rng 'ᲁ' 'ᲁ'], .cls false [.rng 'А' 'А', .rng 'а' 'а'], .cls false [.rng 'Н' 'Н', .rng 'н' 'н'], .lit [' '], .cls false [.rng 'С' 'С', .rng 'с' 'с', .rng 'ᲃ' 'ᲃ'], .cls false [.rng 'У' 'У', .rng 'у' 'у'], .cls false [.rng 'Н' 'Н', .rng 'н' 'н'], .cls false [.rng 'Г' 'Г', .rng 'г' 'г']], .seqs [.number, .lit [' '], .cls false [.rng 'С' 'С', .rng 'с' 'с', .rng 'ᲃ' 'ᲃ'], .cls false [.rng 'О' 'О', .rng 'о' 'о', .rng 'ᲂ' 'ᲂ'], .cls false [.rng 'А' 'А', .rng 'а' 'а'], .cls false [.rng 'Т' 'Т', .rng 'т' 'т', .rng 'ᲄ' 'ᲄ', .rng 'ᲅ' 'ᲅ'], .lit [' '], .cls false [.rng 'О' 'О', .rng 'о' 'о', .rng 'ᲂ' 'ᲂ'], .cls false [.rng 'Л' 'Л', .rng 'л' 'л'], .cls false [.rng 'Д' 'Д', .rng 'д' 'д', .rng 'ᲁ' 'ᲁ'], .cls false [.rng 'И' 'И', .rng 'и' 'и'], .cls false [.rng 'Н' 'Н', .rng 'н' 'н']], .seqs [.number, .lit [' '], .cls false [.rng 'И' 'И', .rng 'и' 'и'], .cls false [.rng 'И' 'И', .rng 'и' 'и'], .cls false [.rng 'Л' 'Л', .rng 'л' 'л'], .lit [' '], .cls false [.rng 'А' 'А', .rng 'а' 'а'], .cls false [.rng 'В' 'В', .rng 'в' 'в', .rng 'ᲀ' 'ᲀ'], .cls false [.rng 'В' 'В', .rng 'в' 'в', .rng 'ᲀ' 'ᲀ'], .cls false [.rng 'А' 'А', .rng 'а' 'а'], .cls false [.rng 'Л' 'Л', .rng 'л' 'л']], .seqs [.number, .lit [' '], .cls false [.rng 'К' 'К', .rng 'к' 'к'], .cls false [.rng 'У' 'У', .rng 'у' 'у'], .cls false [.rng 'Н' 'Н', .rng 'н' 'н'], .lit [' '], .cls false [.rng 'О' 'О', .rng 'о' 'о', .rng 'ᲂ' 'ᲂ'], .cls false [.rng 'Л' 'Л', .rng 'л' 'л'], .cls false [.rng 'Д' 'Д', .rng 'д' 'д', .rng 'ᲁ' 'ᲁ'], .cls false [.rng 'И' 'И', .rng 'и' 'и'], .cls false [.rng 'Н' 'Н', .rng 'н' 'н']], .seqs [.number, .lit [' '], .cls false [.rng 'О' 'О', .rng 'о' 'о', .rng 'ᲂ' 'ᲂ'], .cls false [.rng 'И' 'И', .rng 'и' 'и'], .lit [' '], .cls false [.rng 'А' 'А', .rng 'а' 'а'], .cls false [.rng 'В' 'В', .rng 'в' 'в', .rng 'ᲀ' 'ᲀ'], .cls false [.rng 'В' 'В', .rng 'в' 'в', .rng 'ᲀ' 'ᲀ'], .cls false [.rng 'А' 'А', .rng 'а' 'а'], .cls false [.rng 'Л' 'Л', .rng 'л' 'л']]]), .eos]),
  knownWords :=
   [['к', 'е', 'и', 'и', 'н', 'г', 'и', ' ', 'ҳ', 'а', 'ф', 'т', 'а'], ['t', 'h', 'i', 's', ' ', 'm', 'i', 'n', 'u', 't', 'e'], ['к', 'е', 'и', 'и', 'н', 'г', 'и', ' ', 'и', 'и', 'л'], ['у', 'т', 'г', 'а', 'н', ' ', 'ҳ', 'а', 'ф', 'т', 'а'], ['к', 'е', 'и', 'и', 'н', 'г', 'и', ' ', 'о', 'и'], ['t', 'h', 'i', 's', ' ', 'h', 'o', 'u', 'r'], ['у', 'т', 'г', 'а', 'н', ' ', 'и', 'и', 'л'], ['б', 'у', ' ', 'ҳ', 'а', 'ф', 'т', 'а'], ['п', 'а', 'и', 'ш', 'а', 'н', 'б', 'а'], ['у', 'т', 'г', 'а', 'н', ' ', 'о', 'и'], ['ч', 'о', 'р', 'ш', 'а', 'н', 'б', 'а'], ['д', 'у', 'ш', 'а', 'н', 'б', 'а'], ['с', 'е', 'н', 'т', 'я', 'б', 'р'], ['с', 'е', 'ш', 'а', 'н', 'б', 'а'], ['я', 'к', 'ш', 'а', 'н', 'б', 'а'], ['а', 'в', 'г', 'у', 'с', 'т'], ['б', 'у', ' ', 'и', 'и', 'л'], ['д', 'а', 'қ', 'и', 'қ', 'а'], ['д', 'е', 'к', 'а', 'б', 'р'], ['о', 'к', 'т', 'я', 'б', 'р'], ['ф', 'е', 'в', 'р', 'а', 'л'], ['э', 'р', 'т', 'а', 'г', 'а'], ['а', 'п', 'р', 'е', 'л'], ['б', 'у', ' ', 'о', 'и'], ['б', 'у', 'г', 'у', 'н'], ['н', 'о', 'я', 'б', 'р'], ['с', 'о', 'н', 'и', 'я'], ['ш', 'а', 'н', 'б', 'а'], ['я', 'н', 'в', 'а', 'р'], ['ҳ', 'а', 'ф', 'т', 'а'], ['ҳ', 'о', 'з', 'и', 'р'], ['ж', 'у', 'м', 'а'], ['к', 'е', 'ч', 'а'], ['м', 'а', 'р', 'т'], ['с', 'о', 'а', 'т'], ['g', 'm', 't'], ['u', 't', 'c'], ['а', 'в', 'г'], ['а', 'п', 'р'], ['д', 'е', 'к'], ['д', 'у', 'ш'], ['ж', 'у', 'м'], ['и', 'и', 'л'], ['и', 'ю', 'л'], ['и', 'ю', 'н'], ['к', 'у', 'н'], ['м', 'а', 'и'], ['м', 'а', 'р'], ['н', 'о', 'я'], ['о', 'к', 'т'], ['п', 'а', 'и'], ['с', 'е', 'н'], ['с', 'е', 'ш'], ['ф', 'е', 'в'], ['ч', 'о', 'р'], ['ш', 'а', 'н'], ['я', 'к', 'ш'], ['я', 'н', 'в'], ['a', 'm'], ['p', 'm'], ['о', 'и'], ['т', 'к'], ['т', 'о'], [' '], ['\''], ['+'], [','], ['-'], ['.'], ['/'], [':'], [';'], ['@'], ['['], [']'], ['z'], ['|']] }

/-- internal/data/uz-latn.go: `uz_Latn_Locale`. -/
def uz_LatnLang : LangData := { uz_LatnDict with
  relativeRegexes :=
   [(.seqs [.grp 1 (.number), .lit [' ', 'd', 'a', 'q', 'i', 'q', 'a', 'd', 'a', 'n', ' ', 'k', 'e', 'y', 'i', 'n']], [.lit ['i', 'n', ' '], .ref 1, .lit [' ', 'm', 'i', 'n', 'u', 't', 'e']]),
    (.seqs [.grp 1 (.number), .lit [' ', 's', 'o', 'n', 'i', 'y', 'a', 'd', 'a', 'n', ' ', 'k', 'e', 'y', 'i', 'n']], [.lit ['i', 'n', ' '], .ref 1, .lit [' ', 's', 'e', 'c', 'o', 'n', 'd']]),
    (.seqs [.grp 1 (.number), .lit [' ', 'h', 'a', 'f', 't', 'a', 'd', 'a', 'n', ' ', 'k', 'e', 'y', 'i', 'n']], [.lit ['i', 'n', ' '], .ref 1, .lit [' ', 'w', 'e', 'e', 'k']]),
    (.seqs [.grp 1 (.number), .lit [' ', 's', 'o', 'a', 't', 'd', 'a', 'n', ' ', 'k', 'e', 'y', 'i', 'n']], [.lit ['i', 'n', ' '], .ref 1, .lit [' ', 'h', 'o', 'u', 'r']]),
    (.seqs [.grp 1 (.number), .lit [' ', 'd', 'a', 'q', 'i', 'q', 'a', ' ', 'o', 'l', 'd', 'i', 'n']], [.ref 1, .lit [' ', 'm', 'i', 'n', 'u', 't', 'e', ' ', 'a', 'g', 'o']]),
    (.seqs [.grp 1 (.number), .lit [' ', 'k', 'u', 'n', 'd', 'a', 'n', ' ', 'k', 'e', 'y', 'i', 'n']], [.lit ['i', 'n', ' '], .ref 1, .lit [' ', 'd', 'a', 'y']]),
    (.seqs [.grp 1 (.number), .lit [' ', 's', 'o', 'n', 'i', 'y', 'a', ' ', 'o', 'l', 'd', 'i', 'n']], [.ref 1, .lit [' ', 's', 'e', 'c', 'o', 'n', 'd', ' ', 'a', 'g', 'o']]),
    (.seqs [.grp 1 (.number), .lit [' ', 'y', 'i', 'l', 'd', 'a', 'n', ' ', 'k', 'e', 'y', 'i', 'n']], [.lit ['i', 'n', ' '], .ref 1, .lit [' ', 'y', 'e', 'a', 'r']]),
    (.seqs [.grp 1 (.number), .lit [' ', 'h', 'a', 'f', 't', 'a', ' ', 'o', 'l', 'd', 'i', 'n']], [.ref 1, .lit [' ', 'w', 'e', 'e', 'k', ' ', 'a', 'g', 'o']]),
    (.seqs [.grp 1 (.number), .lit [' ', 'o', 'y', 'd', 'a', 'n', ' ', 'k', 'e', 'y', 'i', 'n']], [.lit ['i', 'n', ' '], .ref 1, .lit [' ', 'm', 'o', 'n', 't', 'h']]),
    (.seqs [.grp 1 (.number), .lit [' ', 's', 'o', 'a', 't', ' ', 'o', 'l', 'd', 'i', 'n']], [.ref 1, .lit [' ', 'h', 'o', 'u', 'r', ' ', 'a', 'g', 'o']]),
    (.seqs [.grp 1 (.number), .lit [' ', 'k', 'u', 'n', ' ', 'o', 'l', 'd', 'i', 'n']], [.ref 1, .lit [' ', 'd', 'a', 'y', ' ', 'a', 'g', 'o']]),
    (.seqs [.grp 1 (.number), .lit [' ', 'y', 'i', 'l', ' ', 'o', 'l', 'd', 'i', 'n']], [.ref 1, .lit [' ', 'y', 'e', 'a', 'r', ' ', 'a', 'g', 'o']]),
    (.seqs [.grp 1 (.number), .lit [' ', 'o', 'y', ' ', 'o', 'l', 'd', 'i', 'n']], [.ref 1, .lit [' ', 'm', 'o', 'n', 't', 'h', ' ', 'a', 'g', 'o']])],
  rxCombined := some (.seqs [.grp 1 (.alts [.bos, .cls true [.letter, .mark, .digit], .lit ['_']]), .grp 2 (.alts [.seqs [.number, .lit [' ', 'd', 'a', 'q', 'i', 'q', 'a', 'd', 'a', 'n', ' ', 'k', 'e', 'y', 'i', 'n']], .seqs [.number, .lit [' ', 's', 'o', 'n', 'i', 'y', 'a', 'd', 'a', 'n', ' ', 'k', 'e', 'y', 'i', 'n']], .seqs [.number, .lit [' ', 'h', 'a', 'f', 't', 'a', 'd', 'a', 'n', ' ', 'k', 'e', 'y', 'i', 'n']], .seqs [.number, .lit [' ', 's', 'o', 'a', 't', 'd', 'a', 'n', ' ', 'k', 'e', 'y', 'i', 'n']], .seqs [.number, .lit [' ', 'd', 'a', 'q', 'i', 'q', 'a', ' ', 'o', 'l', 'd', 'i', 'n']], .seqs [.number, .lit [' ', 'k', 'u', 'n', 'd', 'a', 'n', ' ', 'k', 'e', 'y', 'i', 'n']], .seqs [.number, .lit [' ', 's', 'o', 'n', 'i', 'y', 'a', ' ', 'o', 'l', 'd', 'i', 'n']], .seqs [.number, .lit [' ', 'y', 'i', 'l', 'd', 'a', 'n', ' ', 'k', 'e', 'y', 'i', 'n']], .seqs [.number, .lit [' ', 'h', 'a', 'f', 't', 'a', ' ', 'o', 'l', 'd', 'i', 'n']], .seqs [.number, .lit [' ', 'o', 'y', 'd', 'a', 'n', ' ', 'k', 'e', 'y', 'i', 'n']], .seqs [.number, .lit [' ', 's', 'o', 'a', 't', ' ', 'o', 'l', 'd', 'i', 'n']], .seqs [.number, .lit [' ', 'k', 'u', 'n', ' ', 'o', 'l', 'd', 'i', 'n']], .seqs [.number, .lit [' ', 'y', 'i', 'l', ' ', 'o', 'l', 'd', 'i', 'n']], .seqs [.number, .lit [' ', 'o', 'y', ' ', 'o', 'l', 'd', 'i', 'n']]]), .grp 3 (.alts [.eos, .cls true [.letter, .mark, .digit], .lit ['_']])], 3),
  rxExact := some (.seqs [.bos, .grp 1 (.alts [.seqs [.number, .lit [' ', 'd', 'a', 'q', 'i', 'q', 'a', 'd', 'a', 'n', ' ', 'k', 'e', 'y', 'i', 'n']], .seqs [.number, .lit [' ', 's', 'o', 'n', 'i', 'y', 'a', 'd', 'a', 'n', ' ', 'k', 'e', 'y', 'i', 'n']], .seqs [.number, .lit [' ', 'h', 'a', 'f', 't', 'a', 'd', 'a', 'n', ' ', 'k', 'e', 'y', 'i', 'n']], .seqs [.number, .lit [' ', 's', 'o', 'a', 't', 'd', 'a', 'n', ' ', 'k', 'e', 'y', 'i', 'n']], .seqs [.number, .lit [' ', 'd', 'a', 'q', 'i', 'q', 'a', ' ', 'o', 'l', 'd', 'i', 'n']], .seqs [.number, .lit [' ', 'k', 'u', 'n', 'd', 'a', 'n', ' ', 'k', 'e', 'y', 'i', 'n']], .seqs [.number, .lit [' ', 's', 'o', 'n', 'i', 'y', 'a', ' ', 'o', 'l', 'd', 'i', 'n']], .seqs [.number, .lit [' ', 'y', 'i', 'l', 'd', 'a', 'n', ' ', 'k', 'e', 'y', 'i', 'n']], .seqs [.number, .lit [' ', 'h', 'a', 'f', 't', 'a', ' ', 'o', 'l', 'd', 'i', 'n']], .seqs [.number, .lit [' ', 'o', 'y', 'd', 'a', 'n', ' ', 'k', 'e', 'y', 'i', 'n']], .seqs [.number, .lit [' ', 's', 'o', 'a', 't', ' ', 'o', 'l', 'd', 'i', 'n']], .seqs [.number, .lit [' ', 'k', 'u', 'n', ' ', 'o', 'l', 'd', 'i', 'n']], .seqs [.number, .lit [' ', 'y', 'i', 'l', ' ', 'o', 'l', 'd', 'i', 'n']], .seqs [.number, .lit [' ', 'o', 'y', ' ', 'o', 'l', 'd', 'i', 'n']]]), .eos]),
  knownWords :=
   [['k', 'e', 'y', 'i', 'n', 'g', 'i', ' ', 'h', 'a', 'f', 't', 'a'], ['o', '‘', 't', 'g', 'a', 'n', ' ', 'h', 'a', 'f', 't', 'a'], ['s', 'h', 'u', ' ', 'd', 'a', 'q', 'i', 'q', 'a', 'd', 'a'], ['k', 'e', 'y', 'i', 'n', 'g', 'i', ' ', 'y', 'i', 'l'], ['c', 'h', 'o', 'r', 's', 'h', 'a', 'n', 'b', 'a'], ['k', 'e', 'y', 'i', 'n', 'g', 'i', ' ', 'o', 'y'], ['o', '\'', 't', 'g', 'a', 'n', ' ', 'y', 'i', 'l'], ['o', '‘', 't', 'g', 'a', 'n', ' ', 'y', 'i', 'l'], ['s', 'h', 'u', ' ', 's', 'o', 'a', 't', 'd', 'a'], ['o', '‘', 't', 'g', 'a', 'n', ' ', 'o', 'y'], ['p', 'a', 'y', 's', 'h', 'a', 'n', 'b', 'a'], ['s', 'h', 'u', ' ', 'h', 'a', 'f', 't', 'a'], ['y', 'a', 'k', 's', 'h', 'a', 'n', 'b', 'a'], ['d', 'u', 's', 'h', 'a', 'n', 'b', 'a'], ['s', 'e', 's', 'h', 'a', 'n', 'b', 'a'], ['s', 'e', 'n', 't', 'a', 'b', 'r'], ['s', 'h', 'u', ' ', 'y', 'i', 'l'], ['a', 'v', 'g', 'u', 's', 't'], ['b', 'u', ' ', 'y', 'i', 'l'], ['d', 'a', 'q', 'i', 'q', 'a'], ['d', 'e', 'k', 'a', 'b', 'r'], ['e', 'r', 't', 'a', 'g', 'a'], ['f', 'e', 'v', 'r', 'a', 'l'], ['n', 'o', 'y', 'a', 'b', 'r'], ['o', 'k', 't', 'a', 'b', 'r'], ['s', 'h', 'a', 'n', 'b', 'a'], ['s', 'h', 'u', ' ', 'o', 'y'], ['s', 'o', 'n', 'i', 'y', 'a'], ['y', 'a', 'n', 'v', 'a', 'r'], ['a', 'p', 'r', 'e', 'l'], ['b', 'u', 'g', 'u', 'n'], ['h', 'a', 'f', 't', 'a'], ['h', 'o', 'z', 'i', 'r'], ['k', 'e', 'c', 'h', 'a'], ['c', 'h', 'o', 'r'], ['d', 'u', 's', 'h'], ['i', 'y', 'u', 'l'], ['i', 'y', 'u', 'n'], ['j', 'u', 'm', 'a'], ['m', 'a', 'r', 't'], ['s', 'e', 's', 'h'], ['s', 'h', 'a', 'n'], ['s', 'o', 'a', 't'], ['a', 'p', 'r'], ['a', 'v', 'g'], ['d', 'a', 'q'], ['d', 'e', 'k'], ['f', 'e', 'v'], ['g', 'm', 't'], ['i', 'y', 'l'], ['i', 'y', 'n'], ['j', 'u', 'm'], ['k', 'u', 'n'], ['m', 'a', 'r'], ['m', 'a', 'y'], ['n', 'o', 'y'], ['o', 'k', 't'], ['p', 'a', 'y'], ['s', 'e', 'n'], ['s', 'o', 'n'], ['u', 't', 'c'], ['y', 'a', 'k'], ['y', 'a', 'n'], ['y', 'i', 'l'], ['a', 'm'], ['o', 'y'], ['p', 'm'], ['t', 'k'], ['t', 'o'], [' '], ['\''], ['+'], [','], ['-'], ['.'], ['/'], [':'], [';'], ['@'], ['['], [']'], ['z'], ['|']] }

/-- internal/data/uz.go: `uz_Locale`. -/
def uzLang : LangData := { uzDict with
  relativeRegexes :=
   [(.seqs [.grp 1 (.number), .lit [' ', 'd', 'a', 'q', 'i', 'q', 'a', 'd', 'a', 'n', ' ', 'k', 'e', 'y', 'i', 'n']], [.lit ['i', 'n', ' '], .ref 1, .lit [' ', 'm', 'i', 'n', 'u', 't', 'e']]),
    (.seqs [.grp 1 (.number), .lit [' ', 's', 'o', 'n', 'i', 'y', 'a', 'd', 'a', 'n', ' ', 'k', 'e', 'y', 'i', 'n']], [.lit ['i', 'n', ' '], .ref 1, .lit [' ', 's', 'e', 'c', 'o', 'n', 'd']]),
    (.seqs [.grp 1 (.number), .lit [' ', 'h', 'a', 'f', 't', 'a', 'd', 'a', 'n', ' ', 'k', 'e', 'y', 'i', 'n']], [.lit ['i', 'n', ' '], .ref 1, .lit [' ', 'w', 'e', 'e', 'k']]),
    (.seqs [.grp 1 (.number), .lit [' ', 's', 'o', 'a', 't', 'd', 'a', 'n', ' ', 'k', 'e', 'y', 'i', 'n']], [.lit ['i', 'n', ' '], .ref 1, .lit [' ', 'h', 'o', 'u', 'r']]),
    (.seqs [.grp 1 (.number), .lit [' ', 'd', 'a', 'q', 'i', 'q', 'a', ' ', 'o', 'l', 'd', 'i', 'n']], [.ref 1, .lit [' ', 'm', 'i', 'n', 'u', 't', 'e', ' ', 'a', 'g', 'o']]),
    (.seqs [.grp 1 (.number), .lit [' ', 'k', 'u', 'n', 'd', 'a', 'n', ' ', 'k', 'e', 'y', 'i', 'n']], [.lit ['i', 'n', ' '], .ref 1, .lit [' ', 'd', 'a', 'y']]),
    (.seqs [.grp 1 (.number), .lit [' ', 's', 'o', 'n', 'i', 'y', 'a', ' ', 'o', 'l', 'd', 'i', 'n']], [.ref 1, .lit [' ', 's', 'e', 'c', 'o', 'n', 'd', ' ', 'a', 'g', 'o']]),
    (.seqs [.grp 1 (.number), .lit [' ', 'y', 'i', 'l', 'd', 'a', 'n', ' ', 'k', 'e', 'y', 'i', 'n']], [.lit ['i', 'n', ' '], .ref 1, .lit [' ', 'y', 'e', 'a', 'r']]),
    (.seqs [.grp 1 (.number), .lit [' ', 'h', 'a', 'f', 't', 'a', ' ', 'o', 'l', 'd', 'i', 'n']], [.ref 1, .lit [' ', 'w', 'e', 'e', 'k', ' ', 'a', 'g', 'o']]),
    (.seqs [.grp 1 (.number), .lit [' ', 'o', 'y', 'd', 'a', 'n', ' ', 'k', 'e', 'y', 'i', 'n']], [.lit ['i', 'n', ' '], .ref 1, .lit [' ', 'm', 'o', 'n', 't', 'h']]),
    (.seqs [.grp 1 (.number), .lit [' ', 's', 'o', 'a', 't', ' ', 'o', 'l', 'd', 'i', 'n']], [.ref 1, .lit [' ', 'h', 'o', 'u', 'r', ' ', 'a', 'g', 'o']]),
    (.seqs [.grp 1 (.number), .lit [' ', 'k', 'u', 'n', ' ', 'o', 'l', 'd', 'i', 'n']], [.ref 1, .lit [' ', 'd', 'a', 'y', ' ', 'a', 'g', 'o']]),
    (.seqs [.grp 1 (.number), .lit [' ', 'y', 'i', 'l', ' ', 'o', 'l', 'd', 'i', 'n']], [.ref 1, .lit [' ', 'y', 'e', 'a', 'r', ' ', 'a', 'g', 'o']]),
    (.seqs [.grp 1 (.number), .lit [' ', 'o', 'y', ' ', 'o', 'l', 'd', 'i', 'n']], [.ref 1, .lit [' ', 'm', 'o', 'n', 't', 'h', ' ', 'a', 'g', 'o']])],
  rxCombined := some (.seqs [.grp 1 (.alts [.bos, .cls true [.letter, .mark, .digit], .lit ['_']]), .grp 2 (.alts [.seqs [.number, .lit [' ', 'd', 'a', 'q', 'i', 'q', 'a', 'd', 'a', 'n', ' ', 'k', 'e', 'y', 'i', 'n']], .seqs [.number, .lit [' ', 's', 'o', 'n', 'i', 'y', 'a', 'd', 'a', 'n', ' ', 'k', 'e', 'y', 'i', 'n']], .seqs [.number, .lit [' ', 'h', 'a', 'f', 't', 'a', 'd', 'a', 'n', ' ', 'k', 'e', 'y', 'i', 'n']], .seqs [.number, .lit [' ', 's', 'o', 'a', 't', 'd', 'a', 'n', ' ', 'k', 'e', 'y', 'i', 'n']], .seqs [.number, .lit [' ', 'd', 'a', 'q', 'i', 'q', 'a', ' ', 'o', 'l', 'd', 'i', 'n']], .seqs [.number, .lit [' ', 'k', 'u', 'n', 'd', 'a', 'n', ' ', 'k', 'e', 'y', 'i', 'n']], .seqs [.number, .lit [' ', 's', 'o', 'n', 'i', 'y', 'a', ' ', 'o', 'l', 'd', 'i', 'n']], .seqs [.number, .lit [' ', 'y', 'i', 'l', 'd', 'a', 'n', ' ', 'k', 'e', 'y', 'i', 'n']], .seqs [.number, .lit [' ', 'h', 'a', 'f', 't', 'a', ' ', 'o', 'l', 'd', 'i', 'n']], .seqs [.number, .lit [' ', 'o', 'y', 'd', 'a', 'n', ' ', 'k', 'e', 'y', 'i', 'n']], .seqs [.number, .lit [' ', 's', 'o', 'a', 't', ' ', 'o', 'l', 'd', 'i', 'n']], .seqs [.number, .lit [' ', 'k', 'u', 'n', ' ', 'o', 'l', 'd', 'i', 'n']], .seqs [.number, .lit [' ', 'y', 'i', 'l', ' ', 'o', 'l', 'd', 'i', 'n']], .seqs [.number, .lit [' ', 'o', 'y', ' ', 'o', 'l', 'd', 'i', 'n']]]), .grp 3 (.alts [.eos, .cls true [.letter, .mark, .digit], .lit ['_']])], 3),
  rxExact := some (.seqs [.bos, .grp 1 (.alts [.seqs [.number, .lit [' ', 'd', 'a', 'q', 'i', 'q', 'a', 'd', 'a', 'n', ' ', 'k', 'e', 'y', 'i', 'n']], .seqs [.number, .lit [' ', 's', 'o', 'n', 'i', 'y', 'a', 'd', 'a', 'n', ' ', 'k', 'e', 'y', 'i', 'n']], .seqs [.number, .lit [' ', 'h', 'a', 'f', 't', 'a', 'd', 'a', 'n', ' ', 'k', 'e', 'y', 'i', 'n']], .seqs [.number, .lit [' ', 's', 'o', 'a', 't', 'd', 'a', 'n', ' ', 'k', 'e', 'y', 'i', 'n']], .seqs [.number, .lit [' ', 'd', 'a', 'q', 'i', 'q', 'a', ' ', 'o', 'l', 'd', 'i', 'n']], .seqs [.number, .lit [' ', 'k', 'u', 'n', 'd', 'a', 'n', ' ', 'k', 'e', 'y', 'i', 'n']], .seqs [.number, .lit [' ', 's', 'o', 'n', 'i', 'y', 'a', ' ', 'o', 'l', 'd', 'i', 'n']], .seqs [.number, .lit [' ', 'y', 'i', 'l', 'd', 'a', 'n', ' ', 'k', 'e', 'y', 'i', 'n']], .seqs [.number, .lit [' ', 'h', 'a', 'f', 't', 'a', ' ', 'o', 'l', 'd', 'i', 'n']], .seqs [.number, .lit [' ', 'o', 'y', 'd', 'a', 'n', ' ', 'k', 'e', 'y', 'i', 'n']], .seqs [.number, .lit [' ', 's', 'o', 'a', 't', ' ', 'o', 'l', 'd', 'i', 'n']], .seqs [.number, .lit [' ', 'k', 'u', 'n', ' ', 'o', 'l', 'd', 'i', 'n']], .seqs [.number, .lit [' ', 'y', 'i', 'l', ' ', 'o', 'l', 'd', 'i', 'n']], .seqs [.number, .lit [' ', 'o', 'y', ' ', 'o', 'l', 'd', 'i', 'n']]]), .eos]),
  knownWords :=
   [['k', 'e', 'y', 'i', 'n', 'g', 'i', ' ', 'h', 'a', 'f', 't', 'a'], ['o', '‘', 't', 'g', 'a', 'n', ' ', 'h', 'a', 'f', 't', 'a'], ['s', 'h', 'u', ' ', 'd', 'a', 'q', 'i', 'q', 'a', 'd', 'a'], ['k', 'e', 'y', 'i', 'n', 'g', 'i', ' ', 'y', 'i', 'l'], ['c', 'h', 'o', 'r', 's', 'h', 'a', 'n', 'b', 'a'], ['k', 'e', 'y', 'i', 'n', 'g', 'i', ' ', 'o', 'y'], ['o', '\'', 't', 'g', 'a', 'n', ' ', 'y', 'i', 'l'], ['o', '‘', 't', 'g', 'a', 'n', ' ', 'y', 'i', 'l'], ['s', 'h', 'u', ' ', 's', 'o', 'a', 't', 'd', 'a'], ['o', '‘', 't', 'g', 'a', 'n', ' ', 'o', 'y'], ['p', 'a', 'y', 's', 'h', 'a', 'n', 'b', 'a'], ['s', 'h', 'u', ' ', 'h', 'a', 'f', 't', 'a'], ['y', 'a', 'k', 's', 'h', 'a', 'n', 'b', 'a'], ['d', 'u', 's', 'h', 'a', 'n', 'b', 'a'], ['s', 'e', 's', 'h', 'a', 'n', 'b', 'a'], ['s', 'e', 'n', 't', 'a', 'b', 'r'], ['s', 'h', 'u', ' ', 'y', 'i', 'l'], ['a', 'v', 'g', 'u', 's', 't'], ['b', 'u', ' ', 'y', 'i', 'l'], ['d', 'a', 'q', 'i', 'q', 'a'], ['d', 'e', 'k', 'a', 'b', 'r'], ['e', 'r', 't', 'a', 'g', 'a'], ['f', 'e', 'v', 'r', 'a', 'l'], ['n', 'o', 'y', 'a', 'b', 'r'], ['o', 'k', 't', 'a', 'b', 'r'], ['s', 'h', 'a', 'n', 'b', 'a'], ['s', 'h', 'u', ' ', 'o', 'y'], ['s', 'o', 'n', 'i', 'y', 'a'], ['y', 'a', 'n', 'v', 'a', 'r'], ['a', 'p', 'r', 'e', 'l'], ['b', 'u', 'g', 'u', 'n'], ['h', 'a', 'f', 't', 'a'], ['h', 'o', 'z', 'i', 'r'], ['k', 'e', 'c', 'h', 'a'], ['c', 'h', 'o', 'r'], ['d', 'u', 's', 'h'], ['i', 'y', 'u', 'l'], ['i', 'y', 'u', 'n'], ['j', 'u', 'm', 'a'], ['m', 'a', 'r', 't'], ['s', 'e', 's', 'h'], ['s', 'h', 'a', 'n'], ['s', 'o', 'a', 't'], ['a', 'p', 'r'], ['a', 'v', 'g'], ['d', 'a', 'q'], ['d', 'e', 'k'], ['f', 'e', 'v'], ['g', 'm', 't'], ['i', 'y', 'l'], ['i', 'y', 'n'], ['j', 'u', 'm'], ['k', 'u', 'n'], ['m', 'a', 'r'], ['m', 'a', 'y'], ['n', 'o', 'y'], ['o', 'k', 't'], ['p', 'a', 'y'], ['s', 'e', 'n'], ['s', 'o', 'n'], ['u', 't', 'c'], ['y', 'a', 'k'], ['y', 'a', 'n'], ['y', 'i', 'l'], ['a', 'm'], ['o', 'y'], ['p', 'm'], ['t', 'k'], ['t', 'o'], [' '], ['\''], ['+'], [','], ['-'], ['.'], ['/'], [':'], [';'], ['@'], ['['], [']'], ['z'], ['|']] }

/-- internal/data/vi.go: `vi_Locale`. -/
def viLang : LangData := { viDict with
  simplifications :=
   [(.seqs [.grp 1 (.alts [.bos, .noWord]), .alts [.lit ['n', 'g', 'a', 'y'], .lit ['n', 'a', 'm']], .cls false [.space], .grp 2 (.number), .grp 3 (.alts [.eos, .noWord])], [.ref 1, .ref 2, .ref 3])],
  relativeRegexes :=
   [(.seqs [.lit ['s', 'a', 'u', ' '], .grp 1 (.number), .lit [' ', 't', 'h', 'a', 'n', 'g', ' ', 'n', 'u', 'a']], [.lit ['i', 'n', ' '], .ref 1, .lit [' ', 'm', 'o', 'n', 't', 'h']]),
    (.seqs [.lit ['s', 'a', 'u', ' '], .grp 1 (.number), .lit [' ', 'g', 'i', 'a', 'y', ' ', 'n', 'u', 'a']], [.lit ['i', 'n', ' '], .ref 1, .lit [' ', 's', 'e', 'c', 'o', 'n', 'd']]),
    (.seqs [.lit ['s', 'a', 'u', ' '], .grp 1 (.number), .lit [' ', 'n', 'g', 'a', 'y', ' ', 'n', 'u', 'a']], [.lit ['i', 'n', ' '], .ref 1, .lit [' ', 'd', 'a', 'y']]),
    (.seqs [.lit ['s', 'a', 'u', ' '], .grp 1 (.number), .lit [' ', 'p', 'h', 'u', 't', ' ', 'n', 'u', 'a']], [.lit ['i', 'n', ' '], .ref 1, .lit [' ', 'm', 'i', 'n', 'u', 't', 'e']]),
    (.seqs [.lit ['s', 'a', 'u', ' '], .grp 1 (.number), .lit [' ', 't', 'u', 'a', 'n', ' ', 'n', 'u', 'a']], [.lit ['i', 'n', ' '], .ref 1, .lit [' ', 'w', 'e', 'e', 'k']]),
    (.seqs [.grp 1 (.number), .lit [' ', 't', 'h', 'a', 'n', 'g', ' ', 't', 'r', 'u', 'o', 'c']], [.ref 1, .lit [' ', 'm', 'o', 'n', 't', 'h', ' ', 'a', 'g', 'o']]),
    (.seqs [.lit ['s', 'a', 'u', ' '], .grp 1 (.number), .lit [' ', 'g', 'i', 'o', ' ', 'n', 'u', 'a']], [.lit ['i', 'n', ' '], .ref 1, .lit [' ', 'h', 'o', 'u', 'r']]),
    (.seqs [.lit ['s', 'a', 'u', ' '], .grp 1 (.number), .lit [' ', 'n', 'a', 'm', ' ', 'n', 'u', 'a']], [.lit ['i', 'n', ' '], .ref 1, .lit [' ', 'y', 'e', 'a', 'r']]),
    (.seqs [.grp 1 (.number), .lit [' ', 'g', 'i', 'a', 'y', ' ', 't', 'r', 'u', 'o', 'c']], [.ref 1, .lit [' ', 's', 'e', 'c', 'o', 'n', 'd', ' ', 'a', 'g', 'o']]),
    (.seqs [.grp 1 (.number), .lit [' ', 'n', 'g', 'a', 'y', ' ', 't', 'r', 'u', 'o', 'c']], [.ref 1, .lit [' ', 'd', 'a', 'y', ' ', 'a', 'g', 'o']]),
    (.seqs [.grp 1 (.number), .lit [' ', 'p', 'h', 'u', 't', ' ', 't', 'r', 'u', 'o', 'c']], [.ref 1, .lit [' ', 'm', 'i', 'n', 'u', 't', 'e', ' ', 'a', 'g', 'o']]),
    (.seqs [.grp 1 (.number), .lit [' ', 't', 'u', 'a', 'n', ' ', 't', 'r', 'u', 'o', 'c']], [.ref 1, .lit [' ', 'w', 'e', 'e', 'k', ' ', 'a', 'g', 'o']]),
    (.seqs [.grp 1 (.number), .lit [' ', 'g', 'i', 'o', ' ', 't', 'r', 'u', 'o', 'c']], [.ref 1, .lit [' ', 'h', 'o', 'u', 'r', ' ', 'a', 'g', 'o']]),
    (.seqs [.grp 1 (.number), .lit [' ', 'n', 'a', 'm', ' ', 't', 'r', 'u', 'o', 'c']], [.ref 1, .lit [' ', 'y', 'e', 'a', 'r', ' ', 'a', 'g', 'o']])],
  rxCombined := some (.seqs [.grp 1 (.alts [.bos, .cls true [.letter, .mark, .digit], .lit ['_']]), .grp 2 (.alts [.seqs [.lit ['s', 'a', 'u', ' '], .number, .lit [' ', 't', 'h', 'a', 'n', 'g', ' ', 'n', 'u', 'a']], .seqs [.lit ['s', 'a', 'u', ' '], .number, .lit [' ', 'g', 'i', 'a', 'y', ' ', 'n', 'u', 'a']], .seqs [.lit ['s', 'a', 'u', ' '], .number, .lit [' ', 'n', 'g', 'a', 'y', ' ', 'n', 'u', 'a']], .seqs [.lit ['s', 'a', 'u', ' '], .number, .lit [' ', 'p', 'h', 'u', 't', ' ', 'n', 'u', 'a']], .seqs [.lit ['s', 'a', 'u', ' '], .number, .lit [' ', 't', 'u', 'a', 'n', ' ', 'n', 'u', 'a']], .seqs [.number, .lit [' ', 't', 'h', 'a', 'n', 'g', ' ', 't', 'r', 'u', 'o', 'c']], .seqs [.lit ['s', 'a', 'u', ' '], .number, .lit [' ', 'g', 'i', 'o', ' ', 'n', 'u', 'a']], .seqs [.lit ['s', 'a', 'u', ' '], .number, .lit [' ', 'n', 'a', 'm', ' ', 'n', 'u', 'a']], .seqs [.number, .lit [' ', 'g', 'i', 'a', 'y', ' ', 't', 'r', 'u', 'o', 'c']], .seqs [.number, .lit [' ', 'n', 'g', 'a', 'y', ' ', 't', 'r', 'u', 'o', 'c']], .seqs [.number, .lit [' ', 'p', 'h', 'u', 't', ' ', 't', 'r', 'u', 'o', 'c']], .seqs [.number, .lit [' ', 't', 'u', 'a', 'n', ' ', 't', 'r', 'u', 'o', 'c']], .seqs [.number, .lit [' ', 'g', 'i', 'o', ' ', 't', 'r', 'u', 'o', 'c']], .seqs [.number, .lit [' ', 'n', 'a', 'm', ' ', 't', 'r', 'u', 'o', 'c']]]), .grp 3 (.alts [.eos, .cls true [.letter, .mark, .digit], .lit ['_']])], 3),
  rxExact := some (.seqs [.bos, .grp 1 (.alts [.seqs [.lit ['s', 'a', 'u', ' '], .number, .lit [' ', 't', 'h', 'a', 'n', 'g', ' ', 'n', 'u', 'a']], .seqs [.lit ['s', 'a', 'u', ' '], .number, .lit [' ', 'g', 'i', 'a', 'y', ' ', 'n', 'u', 'a']], .seqs [.lit ['s', 'a', 'u', ' '], .number, .lit [' ', 'n', 'g', 'a', 'y', ' ', 'n', 'u', 'a']], .seqs [.lit ['s', 'a', 'u', ' '], .number, .lit [' ', 'p', 'h', 'u', 't', ' ', 'n', 'u', 'a']], .seqs [.lit ['s', 'a', 'u', ' '], .number, .lit [' ', 't', 'u', 'a', 'n', ' ', 'n', 'u', 'a']], .seqs [.number, .lit [' ', 't', 'h', 'a', 'n', 'g', ' ', 't', 'r', 'u', 'o', 'c']], .seqs [.lit ['s', 'a', 'u', ' '], .number, .lit [' ', 'g', 'i', 'o', ' ', 'n', 'u', 'a']], .seqs [.lit ['s', 'a', 'u', ' '], .number, .lit [' ', 'n', 'a', 'm', ' ', 'n', 'u', 'a']], .seqs [.number, .lit [' ', 'g', 'i', 'a', 'y', ' ', 't', 'r', 'u', 'o', 'c']], .seqs [.number, .lit [' ', 'n', 'g', 'a', 'y', ' ', 't', 'r', 'u', 'o', 'c']], .seqs [.number, .lit [' ', 'p', 'h', 'u', 't', ' ', 't', 'r', 'u', 'o', 'c']], .seqs [.number, .lit [' ', 't', 'u', 'a', 'n', ' ', 't', 'r', 'u', 'o', 'c']], .seqs [.number, .lit [' ', 'g', 'i', 'o', ' ', 't', 'r', 'u', 'o', 'c']], .seqs [.number, .lit [' ', 'n', 'a', 'm', ' ', 't', 'r', 'u', 'o', 'c']]]), .eos]),
  knownWords :=
   [['t', 'h', 'a', 'n', 'g', ' ', 'm', 'u', 'o', 'i', ' ', 'h', 'a', 'i'], ['t', 'h', 'a', 'n', 'g', ' ', 'm', 'u', 'o', 'i', ' ', 'm', 'o', 't'], ['g', 'i', 'a', 'y', ' ', 'đ', 'o', 'n', 'g', ' ', 'h', 'o'], ['t', 'h', 'a', 'n', 'g', ' ', 't', 'r', 'u', 'o', 'c'], ['n', 'g', 'u', 'y', 'e', 'n', ' ', 'b', 'a', 'n'], ['t', 'h', 'a', 'n', 'g', ' ', 'c', 'h', 'i', 'n'], ['t', 'h', 'a', 'n', 'g', ' ', 'm', 'u', 'o', 'i'], ['t', 'u', 'a', 'n', ' ', 't', 'r', 'u', 'o', 'c'], ['n', 'a', 'm', ' ', 'n', 'g', 'o', 'a', 'i'], ['t', 'h', 'a', 'n', 'g', ' ', 'b', 'a', 'y'], ['t', 'h', 'a', 'n', 'g', ' ', 'h', 'a', 'i'], ['t', 'h', 'a', 'n', 'g', ' ', 'm', 'o', 't'], ['t', 'h', 'a', 'n', 'g', ' ', 'n', 'a', 'm'], ['t', 'h', 'a', 'n', 'g', ' ', 'n', 'a', 'y'], ['t', 'h', 'a', 'n', 'g', ' ', 's', 'a', 'u'], ['t', 'h', 'a', 'n', 'g', ' ', 't', 'a', 'm'], ['t', 'r', 'u', 'o', 'c', ' ', 'đ', 'a', 'y'], ['b', 'a', 'n', ' ', 'n', 'g', 'a', 'y'], ['c', 'a', 'c', 'h', ' ', 'đ', 'a', 'y'], ['c', 'h', 'u', ' ', 'n', 'h', 'a', 't'], ['h', 'a', 'n', 'g', ' ', 'n', 'h', 'i'], ['n', 'g', 'a', 'y', ' ', 'm', 'a', 'i'], ['p', 'h', 'u', 't', ' ', 'n', 'a', 'y'], ['t', 'h', 'a', 'n', 'g', ' ', '1', '0'], ['t', 'h', 'a', 'n', 'g', ' ', '1', '1'], ['t', 'h', 'a', 'n', 'g', ' ', '1', '2'], ['t', 'h', 'a', 'n', 'g', ' ', 'b', 'a'], ['t', 'h', 'a', 'n', 'g', ' ', 't', 'u'], ['t', 'u', 'a', 'n', ' ', 'n', 'a', 'y'], ['t', 'u', 'a', 'n', ' ', 's', 'a', 'u'], ['b', 'a', 'y', ' ', 'g', 'i', 'o'], ['g', 'i', 'o', ' ', 'n', 'a', 'y'], ['h', 'o', 'm', ' ', 'n', 'a', 'y'], ['h', 'o', 'm', ' ', 'q', 'u', 'a'], ['n', 'a', 'm', ' ', 'n', 'a', 'y'], ['n', 'a', 'm', ' ', 's', 'a', 'u'], ['t', 'h', 'a', 'n', 'g', ' ', '1'], ['t', 'h', 'a', 'n', 'g', ' ', '2'], ['t', 'h', 'a', 'n', 'g', ' ', '3'], ['t', 'h', 'a', 'n', 'g', ' ', '4'], ['t', 'h', 'a', 'n', 'g', ' ', '5'], ['t', 'h', 'a', 'n', 'g', ' ', '6'], ['t', 'h', 'a', 'n', 'g', ' ', '7'], ['t', 'h', 'a', 'n', 'g', ' ', '8'], ['t', 'h', 'a', 'n', 'g', ' ', '9'], ['t', 'h', 'u', ' ', 'b', 'a', 'y'], ['t', 'h', 'u', ' ', 'h', 'a', 'i'], ['t', 'h', 'u', ' ', 'n', 'a', 'm'], ['t', 'h', 'u', ' ', 's', 'a', 'u'], ['t', 'u', 'a', 'n', ' ', 'l', 'e'], ['t', 'h', 'g', ' ', '1', '0'], ['t', 'h', 'g', ' ', '1', '1'], ['t', 'h', 'g', ' ', '1', '2'], ['t', 'h', 'u', ' ', 'b', 'a'], ['t', 'h', 'u', ' ', 't', 'u'], ['t', 'h', 'a', 'n', 'g'], ['t', 'h', 'g', ' ', '1'], ['t', 'h', 'g', ' ', '2'], ['t', 'h', 'g', ' ', '3'], ['t', 'h', 'g', ' ', '4'], ['t', 'h', 'g', ' ', '5'], ['t', 'h', 'g', ' ', '6'], ['t', 'h', 'g', ' ', '7'], ['t', 'h', 'g', ' ', '8'], ['t', 'h', 'g', ' ', '9'], ['t', 'h', 'u', ' ', '1'], ['t', 'h', 'u', ' ', '2'], ['t', 'h', 'u', ' ', '3'], ['t', 'h', 'u', ' ', '4'], ['t', 'h', 'u', ' ', '5'], ['t', 'h', 'u', ' ', '6'], ['t', 'h', 'u', ' ', '7'], ['t', 'r', 'o', 'n', 'g'], ['t', 'r', 'u', 'o', 'c'], ['b', 'u', 'o', 'i'], ['c', 'h', 'u', 't'], ['g', 'i', 'a', 'y'], ['n', 'g', 'a', 'y'], ['p', 'h', 'u', 't'], ['t', 'h', ' ', '2'], ['t', 'h', ' ', '3'], ['t', 'h', ' ', '4'], ['t', 'h', ' ', '5'], ['t', 'h', ' ', '6'], ['t', 'h', ' ', '7'], ['t', 'u', 'a', 'n'], ['g', 'i', 'o'], ['g', 'm', 't'], ['l', 'a', 't'], ['l', 'u', 'c'], ['n', 'a', 'm'], ['t', 'h', 'g'], ['u', 't', 'c'], ['a', 'm'], ['c', 'h'], ['c', 'n'], ['p', 'm'], ['s', 'a'], [' '], ['\''], ['+'], [','], ['-'], ['.'], ['/'], [':'], [';'], ['@'], ['['], [']'], ['z'], ['|']] }

/-- internal/data/vun.go: `vun_Locale`. -/
def vunLang : LangData := { vunDict with
  knownWords :=
   [['t', 'h', 'i', 's', ' ', 'm', 'i', 'n', 'u', 't', 'e'], ['l', 'a', 's', 't', ' ', 'm', 'o', 'n', 't', 'h'], ['n', 'e', 'x', 't', ' ', 'm', 'o', 'n', 't', 'h'], ['t', 'h', 'i', 's', ' ', 'm', 'o', 'n', 't', 'h'], ['j', 'u', 'm', 'a', 'p', 'i', 'l', 'y', 'i'], ['j', 'u', 'm', 'a', 't', 'a', 't', 'u', 'u'], ['k', 'y', 'i', 'u', 'k', 'o', 'n', 'y', 'i'], ['l', 'a', 's', 't', ' ', 'w', 'e', 'e', 'k'], ['l', 'a', 's', 't', ' ', 'y', 'e', 'a', 'r'], ['n', 'e', 'x', 't', ' ', 'w', 'e', 'e', 'k'], ['n', 'e', 'x', 't', ' ', 'y', 'e', 'a', 'r'], ['t', 'h', 'i', 's', ' ', 'h', 'o', 'u', 'r'], ['t', 'h', 'i', 's', ' ', 'w', 'e', 'e', 'k'], ['t', 'h', 'i', 's', ' ', 'y', 'e', 'a', 'r'], ['a', 'l', 'h', 'a', 'm', 'i', 's', 'i'], ['f', 'e', 'b', 'r', 'u', 'a', 'r', 'i'], ['j', 'u', 'm', 'a', 'm', 'o', 's', 'i'], ['j', 'u', 'm', 'a', 't', 'a', 'n', 'u'], ['s', 'e', 'p', 't', 'e', 'm', 'b', 'a'], ['a', 'p', 'r', 'i', 'l', 'y', 'i'], ['d', 'a', 'k', 'y', 'i', 'k', 'a'], ['d', 'e', 's', 'e', 'm', 'b', 'a'], ['j', 'a', 'n', 'u', 'a', 'r', 'i'], ['j', 'u', 'm', 'a', 'n', 'n', 'e'], ['n', 'o', 'v', 'e', 'm', 'b', 'a'], ['s', 'e', 'k', 'u', 'n', 'd', 'e'], ['a', 'g', 'u', 's', 't', 'i'], ['i', 'j', 'u', 'm', 'a', 'a'], ['j', 'u', 'l', 'y', 'a', 'i'], ['o', 'k', 't', 'o', 'b', 'a'], ['w', 'i', 'i', 'k', 'y', 'i'], ['j', 'u', 'n', 'y', 'i'], ['m', 'a', 'c', 'h', 'i'], ['m', 'f', 'i', 'r', 'i'], ['n', 'g', 'a', 'm', 'a'], ['u', 't', 'u', 'k', 'o'], ['m', 'a', 'k', 'a'], ['m', 'o', 'r', 'i'], ['u', 'k', 'o', 'u'], ['a', 'g', 'o'], ['a', 'l', 'h'], ['a', 'p', 'r'], ['d', 'e', 's'], ['f', 'e', 'b'], ['g', 'm', 't'], ['i', 'j', 'u'], ['i', 'n', 'u'], ['j', 'a', 'n'], ['j', 'm', 'o'], ['j', 'n', 'n'], ['j', 'p', 'i'], ['j', 't', 'n'], ['j', 't', 't'], ['j', 'u', 'l'], ['j', 'u', 'n'], ['m', 'a', 'c'], ['m', 'e', 'i'], ['n', 'o', 'v'], ['n', 'o', 'w'], ['o', 'k', 't'], ['s', 'a', 'a'], ['s', 'e', 'p'], ['u', 't', 'c'], ['a', 'm'], ['p', 'm'], [' '], ['\''], ['+'], [','], ['-'], ['.'], ['/'], [':'], [';'], ['@'], ['['], [']'], ['z'], ['|']] }

/-- internal/data/wae.go: `wae_Locale`. -/
def waeLang : LangData := { waeDict with
  relativeRegexes :=
   [(.seqs [.lit ['v', 'o', 'r', ' '], .grp 1 (.number), .lit [' ', 's', 'e', 'k', 'u', 'n', 'd', 'e']], [.ref 1, .lit [' ', 's', 'e', 'c', 'o', 'n', 'd', ' ', 'a', 'g', 'o']]),
    (.seqs [.lit ['v', 'o', 'r', ' '], .grp 1 (.number), .lit [' ', 'm', 'i', 'n', 'u', 't', 'a']], [.ref 1, .lit [' ', 'm', 'i', 'n', 'u', 't', 'e', ' ', 'a', 'g', 'o']]),
    (.seqs [.lit ['v', 'o', 'r', ' '], .grp 1 (.number), .lit [' ', 'm', 'i', 'n', 'u', 't', 'e']], [.ref 1, .lit [' ', 'm', 'i', 'n', 'u', 't', 'e', ' ', 'a', 'g', 'o']]),
    (.seqs [.lit ['v', 'o', 'r', ' '], .grp 1 (.number), .lit [' ', 's', 'e', 'k', 'u', 'n', 'd']], [.ref 1, .lit [' ', 's', 'e', 'c', 'o', 'n', 'd', ' ', 'a', 'g', 'o']]),
    (.seqs [.lit ['v', 'o', 'r', ' '], .grp 1 (.number), .lit [' ', 's', 't', 'u', 'n', 'd', 'e']], [.ref 1, .lit [' ', 'h', 'o', 'u', 'r', ' ', 'a', 'g', 'o']]),
    (.seqs [.lit ['i', ' '], .grp 1 (.number), .lit [' ', 's', 'e', 'k', 'u', 'n', 'd', 'e']], [.lit ['i', 'n', ' '], .ref 1, .lit [' ', 's', 'e', 'c', 'o', 'n', 'd']]),
    (.seqs [.lit ['v', 'o', 'r', ' '], .grp 1 (.number), .lit [' ', 'm', 'a', 'n', 'e', 't']], [.ref 1, .lit [' ', 'm', 'o', 'n', 't', 'h', ' ', 'a', 'g', 'o']]),
    (.seqs [.lit ['v', 'o', 'r', ' '], .grp 1 (.number), .lit [' ', 's', 't', 'u', 'n', 'd']], [.ref 1, .lit [' ', 'h', 'o', 'u', 'r', ' ', 'a', 'g', 'o']]),
    (.seqs [.lit ['c', 'o', 'r', ' '], .grp 1 (.number), .lit [' ', 'w', 'u', 'c', 'a']], [.ref 1, .lit [' ', 'w', 'e', 'e', 'k', ' ', 'a', 'g', 'o']]),
    (.seqs [.lit ['i', ' '], .grp 1 (.number), .lit [' ', 'm', 'i', 'n', 'u', 't', 'a']], [.lit ['i', 'n', ' '], .ref 1, .lit [' ', 'm', 'i', 'n', 'u', 't', 'e']]),
    (.seqs [.lit ['i', ' '], .grp 1 (.number), .lit [' ', 'm', 'i', 'n', 'u', 't', 'e']], [.lit ['i', 'n', ' '], .ref 1, .lit [' ', 'm', 'i', 'n', 'u', 't', 'e']]),
    (.seqs [.lit ['i', ' '], .grp 1 (.number), .lit [' ', 's', 'e', 'k', 'u', 'n', 'd']], [.lit ['i', 'n', ' '], .ref 1, .lit [' ', 's', 'e', 'c', 'o', 'n', 'd']]),
    (.seqs [.lit ['i', ' '], .grp 1 (.number), .lit [' ', 's', 't', 'u', 'n', 'd', 'e']], [.lit ['i', 'n', ' '], .ref 1, .lit [' ', 'h', 'o', 'u', 'r']]),
    (.seqs [.lit ['v', 'o', 'r', ' '], .grp 1 (.number), .lit [' ', 'w', 'u', 'c', 'a']], [.ref 1, .lit [' ', 'w', 'e', 'e', 'k', ' ', 'a', 'g', 'o']]),
    (.seqs [.lit ['c', 'o', 'r', ' '], .grp 1 (.number), .lit [' ', 'j', 'a', 'r']], [.ref 1, .lit [' ', 'y', 'e', 'a', 'r', ' ', 'a', 'g', 'o']]),
    (.seqs [.lit ['i', ' '], .grp 1 (.number), .lit [' ', 'm', 'a', 'n', 'e', 't']], [.lit ['i', 'n', ' '], .ref 1, .lit [' ', 'm', 'o', 'n', 't', 'h']]),
    (.seqs [.lit ['i', ' '], .grp 1 (.number), .lit [' ', 's', 't', 'u', 'n', 'd']], [.lit ['i', 'n', ' '], .ref 1, .lit [' ', 'h', 'o', 'u', 'r']]),
    (.seqs [.lit ['v', 'o', 'r', ' '], .grp 1 (.number), .lit [' ', 'j', 'a', 'r']], [.ref 1, .lit [' ', 'y', 'e', 'a', 'r', ' ', 'a', 'g', 'o']]),
    (.seqs [.lit ['v', 'o', 'r', ' '], .grp 1 (.number), .lit [' ', 't', 'a', 'g']], [.ref 1, .lit [' ', 'd', 'a', 'y', ' ', 'a', 'g', 'o']]),
    (.seqs [.lit ['i', ' '], .grp 1 (.number), .lit [' ', 'w', 'u', 'c', 'a']], [.lit ['i', 'n', ' '], .ref 1, .lit [' ', 'w', 'e', 'e', 'k']]),
    (.seqs [.lit ['i', ' '], .grp 1 (.number), .lit [' ', 'j', 'a', 'r']], [.lit ['i', 'n', ' '], .ref 1, .lit [' ', 'y', 'e', 'a', 'r']]),
    (.seqs [.lit ['i', ' '], .grp 1 (.number), .lit [' ', 't', 'a', 'g']], [.lit ['i', 'n', ' '], .ref 1, .lit [' ', 'd', 'a', 'y']])],
  rxCombined := some (.seqs [.grp 1 (.alts [.bos, .cls true [.letter, .mark, .digit], .lit ['_']]), .grp 2 (.alts [.seqs [.lit ['v', 'o', 'r', ' '], .number, .lit [' ', 's', 'e', 'k', 'u', 'n', 'd', 'e']], .seqs [.lit ['v', 'o', 'r', ' '], .number, .lit [' ', 'm', 'i', 'n', 'u', 't', 'a']], .seqs [.lit ['v', 'o', 'r', ' '], .number, .lit [' ', 'm', 'i', 'n', 'u', 't', 'e']], .seqs [.lit ['v', 'o', 'r', ' '], .number, .lit [' ', 's', 'e', 'k', 'u', 'n', 'd']], .seqs [.lit ['v', 'o', 'r', ' '], .number, .lit [' ', 's', 't', 'u', 'n', 'd', 'e']], .seqs [.lit ['i', ' '], .number, .lit [' ', 's', 'e', 'k', 'u', 'n', 'd', 'e']], .seqs [.lit ['v', 'o', 'r', ' '], .number, .lit [' ', 'm', 'a', 'n', 'e', 't']], .seqs [.lit ['v', 'o', 'r', ' '], .number, .lit [' ', 's', 't', 'u', 'n', 'd']], .seqs [.lit ['c', 'o', 'r', ' '], .number, .lit [' ', 'w', 'u', 'c', 'a']], .seqs [.lit ['i', ' '], .number, .lit [' ', 'm', 'i', 'n', 'u', 't', 'a']], .seqs [.lit ['i', ' '], .number, .lit [' ', 'm', 'i', 'n', 'u', 't', 'e']], .seqs [.lit ['i', ' '], .number, .lit [' ', 's', 'e', 'k', 'u', 'n', 'd']], .seqs [.lit ['i', ' '], .number, .lit [' ', 's', 't', 'u', 'n', 'd', 'e']], .seqs [.lit ['v', 'o', 'r', ' '], .number, .lit [' ', 'w', 'u', 'c', 'a']], .seqs [.lit ['c', 'o', 'r', ' '], .number, .lit [' ', 'j', 'a', 'r']], .seqs [.lit ['i', ' '], .number, .lit [' ', 'm', 'a', 'n', 'e', 't']], .seqs [.lit ['i', ' '], .number, .lit [' ', 's', 't', 'u', 'n', 'd']], .seqs [.lit ['v', 'o', 'r', ' '], .number, .lit [' ', 'j', 'a', 'r']], .seqs [.lit ['v', 'o', 'r', ' '], .number, .lit [' ', 't', 'a', 'g']], .seqs [.lit ['i', ' '], .number, .lit [' ', 'w', 'u', 'c', 'a']], .seqs [.lit ['i', ' '], .number, .lit [' ', 'j', 'a', 'r']], .seqs [.lit ['i', ' '], .number, .lit [' ', 't', 'a', 'g']]]), .grp 3 (.alts [.eos, .cls true [.letter, .mark, .digit], .lit ['_']])], 3),
  rxExact := some (.seqs [.bos, .grp 1 (.alts [.seqs [.lit ['v', 'o', 'r', ' '], .number, .lit [' ', 's', 'e', 'k', 'u', 'n', 'd', 'e']], .seqs [.lit ['v', 'o', 'r', ' '], .number, .lit [' ', 'm', 'i', 'n', 'u', 't', 'a']], .seqs [.lit ['v', 'o', 'r', ' '], .number, .lit [' ', 'm', 'i', 'n', 'u', 't', 'e']], .seqs [.lit ['v', 'o', 'r', ' '], .number, .lit [' ', 's', 'e', 'k', 'u', 'n', 'd']], .seqs [.lit ['v', 'o', 'r', ' '], .number, .lit [' ', 's', 't', 'u', 'n', 'd', 'e']], .seqs [.lit ['i', ' '], .number, .lit [' ', 's', 'e', 'k', 'u', 'n', 'd', 'e']], .seqs [.lit ['v', 'o', 'r', ' '], .number, .lit [' ', 'm', 'a', 'n', 'e', 't']], .seqs [.lit ['v', 'o', 'r', ' '], .number, .lit [' ', 's', 't', 'u', 'n', 'd']], .seqs [.lit ['c', 'o', 'r', ' '], .number, .lit [' ', 'w', 'u', 'c', 'a']], .seqs [.lit ['i', ' '], .number, .lit [' ', 'm', 'i', 'n', 'u', 't', 'a']], .seqs [.lit ['i', ' '], .number, .lit [' ', 'm', 'i', 'n', 'u', 't', 'e']], .seqs [.lit ['i', ' '], .number, .lit [' ', 's', 'e', 'k', 'u', 'n', 'd']], .seqs [.lit ['i', ' '], .number, .lit [' ', 's', 't', 'u', 'n', 'd', 'e']], .seqs [.lit ['v', 'o', 'r', ' '], .number, .lit [' ', 'w', 'u', 'c', 'a']], .seqs [.lit ['c', 'o', 'r', ' '], .number, .lit [' ', 'j', 'a', 'r']], .seqs [.lit ['i', ' '], .number, .lit [' ', 'm', 'a', 'n', 'e', 't']], .seqs [.lit ['i', ' '], .number, .lit [' ', 's', 't', 'u', 'n', 'd']], .seqs [.lit ['v', 'o', 'r', ' '], .number, .lit [' ', 'j', 'a', 'r']], .seqs [.lit ['v', 'o', 'r', ' '], .number, .lit [' ', 't', 'a', 'g']], .seqs [.lit ['i', ' '], .number, .lit [' ', 'w', 'u', 'c', 'a']], .seqs [.lit ['i', ' '], .number, .lit [' ', 'j', 'a', 'r']], .seqs [.lit ['i', ' '], .number, .lit [' ', 't', 'a', 'g']]]), .eos]),
  knownWords :=
   [['c', 'h', 'r', 'i', 's', 't', 'm', 'a', 'n', 'e', 't'], ['h', 'e', 'r', 'b', 's', 't', 'm', 'a', 'n', 'e', 't'], ['t', 'h', 'i', 's', ' ', 'm', 'i', 'n', 'u', 't', 'e'], ['w', 'i', 'n', 't', 'e', 'r', 'm', 'a', 'n', 'e', 't'], ['l', 'a', 's', 't', ' ', 'm', 'o', 'n', 't', 'h'], ['n', 'e', 'x', 't', ' ', 'm', 'o', 'n', 't', 'h'], ['t', 'h', 'i', 's', ' ', 'm', 'o', 'n', 't', 'h'], ['l', 'a', 's', 't', ' ', 'w', 'e', 'e', 'k'], ['l', 'a', 's', 't', ' ', 'y', 'e', 'a', 'r'], ['n', 'e', 'x', 't', ' ', 'w', 'e', 'e', 'k'], ['n', 'e', 'x', 't', ' ', 'y', 'e', 'a', 'r'], ['t', 'h', 'i', 's', ' ', 'h', 'o', 'u', 'r'], ['t', 'h', 'i', 's', ' ', 'w', 'e', 'e', 'k'], ['t', 'h', 'i', 's', ' ', 'y', 'e', 'a', 'r'], ['a', 'b', 'r', 'i', 'l', 'l', 'e'], ['f', 'r', 'o', 'n', 't', 'a', 'g'], ['m', 'i', 'n', 'u', 't', 't', 'a'], ['m', 'i', 't', 't', 'w', 'u', 'c'], ['s', 'a', 'm', 's', 't', 'a', 'g'], ['s', 'c', 'h', 't', 'u', 'n', 'd'], ['s', 'e', 'k', 'u', 'n', 'd', 'a'], ['s', 'u', 'n', 'n', 't', 'a', 'g'], ['w', 'i', 'm', 'a', 'n', 'e', 't'], ['b', 'r', 'a', 'c', 'e', 't'], ['f', 'r', 'i', 't', 'a', 'g'], ['g', 'e', 's', 't', 'e', 'r'], ['h', 'e', 'i', 'w', 'e', 't'], ['h', 'o', 'r', 'n', 'i', 'g'], ['j', 'e', 'n', 'n', 'e', 'r'], ['m', 'a', 'n', 't', 'a', 'g'], ['o', 'i', 'g', 's', 't', 'e'], ['z', 'i', 's', 't', 'a', 'g'], ['h', 'i', 't', 't', 'e'], ['m', 'a', 'n', 'e', 't'], ['m', 'a', 'r', 'z', 'e'], ['m', 'e', 'i', 'j', 'e'], ['m', 'o', 'r', 'e'], ['w', 'u', 'c', 'a'], ['a', 'b', 'r'], ['b', 'r', 'a'], ['c', 'h', 'r'], ['f', 'r', 'i'], ['f', 'r', 'o'], ['g', 'm', 't'], ['h', 'e', 'i'], ['h', 'e', 'r'], ['h', 'o', 'r'], ['j', 'a', 'r'], ['j', 'e', 'n'], ['m', 'a', 'n'], ['m', 'a', 'r'], ['m', 'e', 'i'], ['m', 'i', 't'], ['n', 'o', 'w'], ['o', 'i', 'g'], ['s', 'a', 'm'], ['s', 'u', 'n'], ['t', 'a', 'g'], ['u', 't', 'c'], ['w', 'i', 'm'], ['w', 'i', 'n'], ['z', 'i', 's'], ['a', 'm'], ['p', 'm'], [' '], ['\''], ['+'], [','], ['-'], ['.'], ['/'], [':'], [';'], ['@'], ['['], [']'], ['z'], ['|']] }

/-- internal/data/xog.go: `xog_Locale`. -/
def xogLang : LangData := { xogDict with
  knownWords :=
   [['o', 'l', 'w', 'a', 'l', 'e', 'e', 'l', 'o', ' ', '(', 'l', 'e', 'e', 'l', 'o', ')'], ['o', 'b', 'u', 't', 'i', 'k', 'i', 't', 'i', 'k', 'i'], ['t', 'h', 'i', 's', ' ', 'm', 'i', 'n', 'u', 't', 'e'], ['l', 'a', 's', 't', ' ', 'm', 'o', 'n', 't', 'h'], ['n', 'e', 'x', 't', ' ', 'm', 'o', 'n', 't', 'h'], ['o', 'l', 'o', 'k', 'u', 't', 'a', 'a', 'n', 'u'], ['o', 'l', 'o', 'm', 'u', 'k', 'a', 'a', 'g', 'a'], ['s', 'e', 'b', 'u', 't', 't', 'e', 'm', 'b', 'a'], ['t', 'h', 'i', 's', ' ', 'm', 'o', 'n', 't', 'h'], ['f', 'e', 'b', 'w', 'a', 'l', 'i', 'y', 'o'], ['j', 'a', 'n', 'w', 'a', 'l', 'i', 'y', 'o'], ['l', 'a', 's', 't', ' ', 'w', 'e', 'e', 'k'], ['l', 'a', 's', 't', ' ', 'y', 'e', 'a', 'r'], ['n', 'e', 'x', 't', ' ', 'w', 'e', 'e', 'k'], ['n', 'e', 'x', 't', ' ', 'y', 'e', 'a', 'r'], ['o', 'w', 'o', 'k', 'u', 'b', 'i', 'l', 'i'], ['o', 'w', 'o', 'k', 'u', 's', 'a', 't', 'u'], ['t', 'h', 'i', 's', ' ', 'h', 'o', 'u', 'r'], ['t', 'h', 'i', 's', ' ', 'w', 'e', 'e', 'k'], ['t', 'h', 'i', 's', ' ', 'y', 'e', 'a', 'r'], ['e', 'd', 'a', 'k', 'i', 'i', 'k', 'a'], ['e', 's', 'a', 'b', 'i', 'i', 't', 'i'], ['o', 'k', 'i', 't', 'o', 'b', 'b', 'a'], ['a', 'g', 'u', 's', 'i', 't', 'o'], ['d', 'e', 's', 'e', 'm', 'b', 'a'], ['j', 'u', 'l', 'a', 'a', 'y', 'i'], ['n', 'o', 'v', 'e', 'm', 'b', 'a'], ['o', 'l', 'o', 'k', 'u', 'n', 'a'], ['o', 'l', 'u', 'n', 'a', 'k', 'u'], ['s', 'a', 'b', 'i', 'i', 't', 'i'], ['b', 'a', 'l', 'a', 'z', 'a'], ['e', 'i', 'g', 'u', 'l', 'o'], ['e', 's', 's', 'a', 'w', 'a'], ['m', 'a', 'r', 'i', 's', 'i'], ['m', 'u', 'n', 'k', 'y', 'o'], ['o', 'm', 'w', 'a', 'k', 'a'], ['o', 'm', 'w', 'e', 'z', 'i'], ['a', 'p', 'u', 'l', 'i'], ['e', 'n', 'k', 'y', 'o'], ['j', 'u', 'u', 'n', 'i'], ['m', 'a', 'a', 'y', 'i'], ['b', 'a', 'l', 'a'], ['e', 'd', 'h', 'o'], ['k', 'u', 'b', 'i'], ['k', 'u', 'n', 'a'], ['k', 'u', 's', 'a'], ['k', 'u', 't', 'a'], ['m', 'u', 'k', 'a'], ['s', 'a', 'b', 'i'], ['a', 'g', 'u'], ['a', 'p', 'u'], ['d', 'e', 's'], ['f', 'e', 'b'], ['g', 'm', 't'], ['j', 'a', 'n'], ['j', 'u', 'l'], ['j', 'u', 'u'], ['m', 'a', 'a'], ['m', 'a', 'r'], ['n', 'o', 'v'], ['n', 'o', 'w'], ['o', 'k', 'i'], ['s', 'e', 'b'], ['u', 't', 'c'], ['a', 'm'], ['p', 'm'], [' '], ['\''], ['+'], [','], ['-'], ['.'], ['/'], [':'], [';'], ['@'], ['['], [']'], ['z'], ['|']] }

/-- internal/data/yav.go: `yav_Locale`. -/
def yavLang : LangData := { yavDict with
  knownWords :=
   [['p', 'i', 'k', 'i', 't', 'i', 'k', 'i', 't', 'i', 'e', ',', ' ', 'o', 'o', 'l', 'i', ' ', 'u', ' ', 'k', 'u', 't', 'u', 'a', 'n'], ['i', 'm', 'ɛ', 'ŋ', ' ', 'i', ' ', 'p', 'u', 't', 'u', 'k', ',', 'o', 'o', 'l', 'i', ' ', 'u', ' ', 'k', 'a', 't', 'i', 'ɛ'], ['ɔ', 'n', 's', 'u', 'm', 'b', 'ɔ', 'l', ',', ' ', 'o', 'o', 'l', 'i', ' ', 'u', ' ', 'k', 'a', 't', 'a', 't', 'u', 'ɛ'], ['e', 'n', 's', 'i', 'l', ',', ' ', 'o', 'o', 'l', 'i', ' ', 'u', ' ', 'k', 'a', 't', 'a', 'n', 'u', 'ɛ'], ['s', 'i', 'ɛ', 'y', 'ɛ', ',', ' ', 'o', 'o', 'l', 'i', ' ', 'u', ' ', 'k', 'a', 'n', 'd', 'i', 'ɛ'], ['m', 'e', 's', 'i', 'ŋ', ',', ' ', 'o', 'o', 'l', 'i', ' ', 'u', ' ', 'k', 'e', 'n', 'i', 'e'], ['k', 'u', 'p', 'e', 'l', 'i', 'm', 'e', 't', 'u', 'k', 'p', 'i', 'a', 'p', 'ɛ'], ['m', 'u', 'a', 'n', 'y', 'a', 'ŋ', 'm', 'o', 'n', 'd', 'i', 'e'], ['i', 'm', 'ɛ', 'ŋ', ' ', 'i', ' ', 'p', 'u', 'ɔ', 's'], ['t', 'h', 'i', 's', ' ', 'm', 'i', 'n', 'u', 't', 'e'], ['l', 'a', 's', 't', ' ', 'm', 'o', 'n', 't', 'h'], ['m', 'e', 't', 'u', 'k', 'p', 'i', 'a', 'p', 'ɛ'], ['n', 'e', 'x', 't', ' ', 'm', 'o', 'n', 't', 'h'], ['t', 'h', 'i', 's', ' ', 'm', 'o', 'n', 't', 'h'], ['l', 'a', 's', 't', ' ', 'w', 'e', 'e', 'k'], ['l', 'a', 's', 't', ' ', 'y', 'e', 'a', 'r'], ['m', 'a', 'k', 'a', 'n', 'd', 'i', 'k', 'ɛ'], ['n', 'e', 'x', 't', ' ', 'w', 'e', 'e', 'k'], ['n', 'e', 'x', 't', ' ', 'y', 'e', 'a', 'r'], ['t', 'h', 'i', 's', ' ', 'h', 'o', 'u', 'r'], ['t', 'h', 'i', 's', ' ', 'w', 'e', 'e', 'k'], ['t', 'h', 'i', 's', ' ', 'y', 'e', 'a', 'r'], ['k', 'i', 's', 'i', 'k', 'ɛ', 'l', ','], ['n', 'a', 'k', 'i', 'n', 'y', 'a', 'm'], ['k', 'i', 's', 'ɛ', 'n', 'd', 'ɛ'], ['k', 'i', 'ɛ', 'm', 'ɛ', 'ɛ', 'm'], ['p', 'i', 'l', 'ɔ', 'n', 'd', 'ɔ'], ['f', 'e', 'l', 'e', 't', 'e'], ['m', 'o', 'n', 'd', 'i', 'e'], ['p', 'i', 's', 'u', 'y', 'u'], ['s', 'e', 's', 'e', 'l', 'e'], ['s', 'ɔ', 'n', 'd', 'i', 'ɛ'], ['e', 'f', 'u', 't', 'e'], ['i', 'n', 'a', 'a', 'n'], ['m', 'i', 'n', 'i', 't'], ['p', 'u', 'y', 'o', 'o'], ['p', 'u', 'ɔ', 's', 'ɛ'], ['s', 'i', 'k', 'ɛ', 'n'], ['o', 'o', 'l', 'i'], ['y', 'ɔ', 'ɔ', 'ŋ'], ['ɔ', 's', 'ɔ', 'n'], ['g', 'm', 't'], ['n', 'o', 'w'], ['o', '1', '0'], ['o', '1', '1'], ['o', '1', '2'], ['u', 't', 'c'], ['a', 'm'], ['e', 't'], ['f', 'l'], ['k', 'l'], ['m', 'd'], ['m', 'w'], ['o', '1'], ['o', '2'], ['o', '3'], ['o', '4'], ['o', '5'], ['o', '6'], ['o', '7'], ['o', '8'], ['o', '9'], ['p', 'm'], ['s', 'd'], ['s', 's'], [' '], ['\''], ['+'], [','], ['-'], ['.'], ['/'], [':'], [';'], ['@'], ['['], [']'], ['z'], ['|']] }

/-- internal/data/yi.go: `yi_Locale`. -/
def yiLang : LangData := { yiDict with
  relativeRegexes :=
   [(.seqs [.lit ['א', 'י', 'ן', ' '], .grp 1 (.number), .lit [' ', 'ט', 'א', 'ג', ' ', 'א', 'ר', 'ו', 'ם']], [.lit ['i', 'n', ' '], .ref 1, .lit [' ', 'd', 'a', 'y']]),
    (.seqs [.lit ['א', 'י', 'ן', ' '], .grp 1 (.number), .lit [' ', 'ט', 'ע', 'ג', ' ', 'א', 'ר', 'ו', 'ם']], [.lit ['i', 'n', ' '], .ref 1, .lit [' ', 'd', 'a', 'y']]),
    (.seqs [.lit ['א', 'י', 'ב', 'ע', 'ר', ' '], .grp 1 (.number), .lit [' ', 'ח', 'ד', 'ש', 'י', 'ם']], [.lit ['i', 'n', ' '], .ref 1, .lit [' ', 'm', 'o', 'n', 't', 'h']]),
    (.seqs [.lit ['א', 'י', 'ב', 'ע', 'ר', ' '], .grp 1 (.number), .lit [' ', 'ח', 'ו', 'ד', 'ש']], [.lit ['i', 'n', ' '], .ref 1, .lit [' ', 'm', 'o', 'n', 't', 'h']]),
    (.seqs [.lit ['א', 'י', 'ב', 'ע', 'ר', ' '], .grp 1 (.number), .lit [' ', 'י', 'א', 'ר']], [.lit ['i', 'n', ' '], .ref 1, .lit [' ', 'y', 'e', 'a', 'r']]),
    (.seqs [.lit ['פ', 'א', 'ר', ' '], .grp 1 (.number), .lit [' ', 'ח', 'ד', 'ש', 'י', 'ם']], [.ref 1, .lit [' ', 'm', 'o', 'n', 't', 'h', ' ', 'a', 'g', 'o']]),
    (.seqs [.lit ['פ', 'א', 'ר', ' '], .grp 1 (.number), .lit [' ', 'ח', 'ו', 'ד', 'ש']], [.ref 1, .lit [' ', 'm', 'o', 'n', 't', 'h', ' ', 'a', 'g', 'o']]),
    (.seqs [.lit ['פ', 'א', 'ר', ' '], .grp 1 (.number), .lit [' ', 'י', 'א', 'ר']], [.ref 1, .lit [' ', 'y', 'e', 'a', 'r', ' ', 'a', 'g', 'o']])],
  rxCombined := some (.seqs [.grp 1 (.alts [.bos, .cls true [.letter, .mark, .digit], .lit ['_']]), .grp 2 (.alts [.seqs [.lit ['א', 'י', 'ן', ' '], .number, .lit [' ', 'ט', 'א', 'ג', ' ', 'א', 'ר', 'ו', 'ם']], .seqs [.lit ['א', 'י', 'ן', ' '], .number, .lit [' ', 'ט', 'ע', 'ג', ' ', 'א', 'ר', 'ו', 'ם']], .seqs [.lit ['א', 'י', 'ב', 'ע', 'ר', ' '], .number, .lit [' ', 'ח', 'ד', 'ש', 'י', 'ם']], .seqs [.lit ['א', 'י', 'ב', 'ע', 'ר', ' '], .number, .lit [' ', 'ח', 'ו', 'ד', 'ש']], .seqs [.lit ['א', 'י', 'ב', 'ע', 'ר', ' '], .number, .lit [' ', 'י', 'א', 'ר']], .seqs [.lit ['פ', 'א', 'ר', ' '], .number, .lit [' ', 'ח', 'ד', 'ש', 'י', 'ם']], .seqs [.lit ['פ', 'א', 'ר', ' '], .number, .lit [' ', 'ח', 'ו', 'ד', 'ש']], .seqs [.lit ['פ', 'א', 'ר', ' '], .number, .lit [' ', 'י', 'א', 'ר']]]), .grp 3 (.alts [.eos, .cls true [.letter, .mark, .digit], .lit ['_']])], 3),
  rxExact := some (.seqs [.bos, .grp 1 (.alts [.seqs [.lit ['א', 'י', 'ן', ' '], .number, .lit [' ', 'ט', 'א', 'ג', ' ', 'א', 'ר', 'ו', 'ם']], .seqs [.lit ['א', 'י', 'ן', ' '], .number, .lit [' ', 'ט', 'ע', 'ג', ' ', 'א', 'ר', 'ו', 'ם']], .seqs [.lit ['א', 'י', 'ב', 'ע', 'ר', ' '], .number, .lit [' ', 'ח', 'ד', 'ש', 'י', 'ם']], .seqs [.lit ['א', 'י', 'ב', 'ע', 'ר', ' '], .number, .lit [' ', 'ח', 'ו', 'ד', 'ש']], .seqs [.lit ['א', 'י', 'ב', 'ע', 'ר', ' '], .number, .lit [' ', 'י', 'א', 'ר']], .seqs [.lit ['פ', 'א', 'ר', ' '], .number, .lit [' ', 'ח', 'ד', 'ש', 'י', 'ם']], .seqs [.lit ['פ', 'א', 'ר', ' '], .number, .lit [' ', 'ח', 'ו', 'ד', 'ש']], .seqs [.lit ['פ', 'א', 'ר', ' '], .number, .lit [' ', 'י', 'א', 'ר']]]), .eos]),
  knownWords :=
   [['פ', 'א', 'ר', 'ג', 'א', 'נ', 'ג', 'ע', 'נ', 'ע', 'ם', ' ', 'ח', 'ו', 'ד', 'ש'], ['ק', 'ו', 'מ', 'ע', 'נ', 'ד', 'י', 'ק', 'ן', ' ', 'ח', 'ו', 'ד', 'ש'], ['א', 'י', 'ב', 'ע', 'ר', ' ', 'א', 'כ', 'ט', ' ', 'ט', 'א', 'ג'], ['t', 'h', 'i', 's', ' ', 'm', 'i', 'n', 'u', 't', 'e'], ['א', 'י', 'ב', 'ע', 'ר', ' ', 'א', ' ', 'י', 'א', 'ר'], ['l', 'a', 's', 't', ' ', 'w', 'e', 'e', 'k'], ['t', 'h', 'i', 's', ' ', 'h', 'o', 'u', 'r'], ['t', 'h', 'i', 's', ' ', 'w', 'e', 'e', 'k'], ['ד', 'א', 'נ', 'ע', 'ר', 'ש', 'ט', 'י', 'ק'], ['נ', 'א', 'ו', 'ו', 'ע', 'מ', 'ב', 'ע', 'ר'], ['ס', 'ע', 'פ', 'ט', 'ע', 'מ', 'ב', 'ע', 'ר'], ['ד', 'ע', 'ם', ' ', 'ח', 'ו', 'ד', 'ש'], ['ד', 'ע', 'צ', 'ע', 'מ', 'ב', 'ע', 'ר'], ['נ', 'א', 'כ', 'מ', 'י', 'ט', 'א', 'ג'], ['פ', 'א', 'ר', 'מ', 'י', 'ט', 'א', 'ג'], ['א', 'ו', 'י', 'ג', 'ו', 'ס', 'ט'], ['א', 'ק', 'ט', 'א', 'ב', 'ע', 'ר'], ['ד', 'י', 'נ', 'ס', 'ט', 'י', 'ק'], ['מ', 'י', 'ט', 'ו', 'ו', 'א', 'ך'], ['ס', 'ע', 'ק', 'ו', 'נ', 'ד', 'ע'], ['פ', 'א', 'ר', 'א', 'י', 'א', 'ר'], ['פ', 'ע', 'ב', 'ר', 'ו', 'א', 'ר'], ['ה', 'ײ', ' ', 'י', 'א', 'ר'], ['ז', 'ו', 'נ', 'ט', 'י', 'ק'], ['י', 'א', 'נ', 'ו', 'א', 'ר'], ['מ', 'א', 'נ', 'ט', 'י', 'ק'], ['פ', 'ר', 'ײ', 'ט', 'י', 'ק'], ['א', 'פ', 'ר', 'י', 'ל'], ['ה', 'י', 'י', 'נ', 'ט'], ['מ', 'א', 'נ', 'א', 'ט'], ['מ', 'א', 'ר', 'ג', 'ן'], ['מ', 'י', 'נ', 'ו', 'ט'], ['נ', 'ע', 'כ', 'ט', 'ן'], ['א', 'ו', 'י', 'ג'], ['ו', 'ו', 'א', 'ך'], ['י', 'ו', 'ל', 'י'], ['י', 'ו', 'נ', 'י'], ['מ', 'ע', 'ר', 'ץ'], ['נ', 'א', 'ו', 'ו'], ['g', 'm', 't'], ['n', 'o', 'w'], ['u', 't', 'c'], ['א', 'פ', 'ר'], ['א', 'ק', 'ט'], ['ד', 'ע', 'צ'], ['ט', 'א', 'ג'], ['י', 'א', 'נ'], ['י', 'א', 'ר'], ['מ', 'י', 'י'], ['ס', 'ע', 'פ'], ['פ', 'ע', 'ב'], ['ש', 'ב', 'ת'], ['ש', 'ע', 'ה'], ['a', 'm'], ['p', 'm'], [' '], ['\''], ['+'], [','], ['-'], ['.'], ['/'], [':'], [';'], ['@'], ['['], [']'], ['z'], ['|']] }

/-- internal/data/yo.go: `yo_Locale`. -/
def yoLang : LangData := { yoDict with
  knownWords :=
   [['o', 'j', 'o', ' ', 'a', 'b', 'a', 'm', 'e', 't', 'a'], ['t', 'h', 'i', 's', ' ', 'm', 'i', 'n', 'u', 't', 'e'], ['i', 's', 'e', 'j', 'u', ' ', 'a', 'a', 'y', 'a'], ['l', 'a', 's', 't', ' ', 'm', 'o', 'n', 't', 'h'], ['n', 'e', 'x', 't', ' ', 'm', 'o', 'n', 't', 'h'], ['o', 'j', 'o', ' ', 'i', 's', 'e', 'g', 'u', 'n'], ['t', 'h', 'i', 's', ' ', 'm', 'o', 'n', 't', 'h'], ['l', 'a', 's', 't', ' ', 'w', 'e', 'e', 'k'], ['l', 'a', 's', 't', ' ', 'y', 'e', 'a', 'r'], ['n', 'e', 'x', 't', ' ', 'w', 'e', 'e', 'k'], ['n', 'e', 'x', 't', ' ', 'y', 'e', 'a', 'r'], ['o', 's', 'u', ' ', 'a', 'g', 'e', 'm', 'o'], ['o', 's', 'u', ' ', 'e', 'b', 'i', 'b', 'i'], ['o', 's', 'u', ' ', 'e', 'r', 'e', 'l', 'e'], ['o', 's', 'u', ' ', 'e', 'r', 'e', 'n', 'a'], ['o', 's', 'u', ' ', 'o', 'k', 'u', 'd', 'u'], ['o', 's', 'u', ' ', 'o', 'w', 'a', 'r', 'a'], ['o', 's', 'u', ' ', 'o', 'w', 'e', 'w', 'e'], ['t', 'h', 'i', 's', ' ', 'h', 'o', 'u', 'r'], ['t', 'h', 'i', 's', ' ', 'w', 'e', 'e', 'k'], ['t', 'h', 'i', 's', ' ', 'y', 'e', 'a', 'r'], ['o', 'j', 'o', ' ', 'a', 'i', 'k', 'u'], ['o', 's', 'u', ' ', 'b', 'e', 'l', 'u'], ['o', 's', 'u', ' ', 'i', 'g', 'b', 'e'], ['o', 's', 'u', ' ', 'o', 'g', 'u', 'n'], ['o', 's', 'u', ' ', 's', 'e', 'r', 'e'], ['a', 'b', 'a', 'm', 'e', 't', 'a'], ['o', 'j', 'o', ' ', 'a', 'j', 'e'], ['o', 'j', 'o', ' ', 'e', 't', 'i'], ['o', 's', 'u', ' ', 'o', 'p', 'e'], ['i', 's', 'e', 'g', 'u', 'n'], ['w', 'a', 'k', 'a', 't', 'i'], ['a', 'g', 'e', 'm', 'o'], ['e', 'b', 'i', 'b', 'i'], ['e', 'r', 'e', 'l', 'e'], ['e', 'r', 'e', 'n', 'a'], ['i', 's', 'e', 'j', 'u'], ['o', 'j', 'o', 'b', 'o'], ['o', 'j', 'o', 'r', 'u'], ['o', 'k', 'u', 'd', 'u'], ['o', 'w', 'a', 'r', 'a'], ['o', 'w', 'e', 'w', 'e'], ['a', 'a', 'r', 'o'], ['a', 'i', 'k', 'u'], ['b', 'e', 'l', 'u'], ['i', 'g', 'b', 'e'], ['o', 'd', 'u', 'n'], ['o', 'g', 'u', 'n'], ['o', 's', 'a', 'n'], ['s', 'e', 'r', 'e'], ['a', 'j', 'e'], ['a', 'n', 'a'], ['e', 't', 'i'], ['g', 'm', 't'], ['n', 'o', 'w'], ['o', 'j', 'o'], ['o', 'l', 'a'], ['o', 'n', 'i'], ['o', 'p', 'e'], ['o', 's', 'e'], ['o', 's', 'u'], ['u', 't', 'c'], ['a', 'm'], ['p', 'm'], [' '], ['\''], ['+'], [','], ['-'], ['.'], ['/'], [':'], [';'], ['@'], ['['], [']'], ['z'], ['|']] }

/-- internal/data/yo.go: `yo_BJ_Locale`. -/
def yo_BJLang : LangData := { yo_BJDict with
  knownWords :=
   [['o', 'j', 'o', ' ', 'a', 'b', 'a', 'm', 'e', 't', 'a'], ['t', 'h', 'i', 's', ' ', 'm', 'i', 'n', 'u', 't', 'e'], ['ɔ', 'j', 'ɔ', ' ', 'a', 'b', 'a', 'm', 'ɛ', 't', 'a'], ['i', 's', 'e', 'j', 'u', ' ', 'a', 'a', 'y', 'a'], ['i', 's', 'ɛ', 'j', 'u', ' ', 'a', 'a', 'y', 'a'], ['l', 'a', 's', 't', ' ', 'm', 'o', 'n', 't', 'h'], ['n', 'e', 'x', 't', ' ', 'm', 'o', 'n', 't', 'h'], ['o', 'j', 'o', ' ', 'i', 's', 'e', 'g', 'u', 'n'], ['o', 's', 'h', 'u', ' ', 'a', 'g', 'ɛ', 'm', 'ɔ'], ['o', 's', 'h', 'u', ' ', 'e', 'r', 'e', 'l', 'e'], ['o', 's', 'h', 'u', ' ', 'o', 'k', 'u', 'd', 'u'], ['o', 's', 'h', 'u', ' ', 'o', 'w', 'e', 'w', 'e'], ['o', 's', 'h', 'u', ' ', 's', 'h', 'ɛ', 'r', 'ɛ'], ['o', 's', 'h', 'u', ' ', 'ɔ', 'w', 'a', 'r', 'a'], ['o', 's', 'h', 'u', ' ', 'ɛ', 'b', 'i', 'b', 'i'], ['o', 's', 'h', 'u', ' ', 'ɛ', 'r', 'ɛ', 'n', 'a'], ['t', 'h', 'i', 's', ' ', 'm', 'o', 'n', 't', 'h'], ['ɔ', 'j', 'ɔ', ' ', 'i', 's', 'ɛ', 'g', 'u', 'n'], ['l', 'a', 's', 't', ' ', 'w', 'e', 'e', 'k'], ['l', 'a', 's', 't', ' ', 'y', 'e', 'a', 'r'], ['n', 'e', 'x', 't', ' ', 'w', 'e', 'e', 'k'], ['n', 'e', 'x', 't', ' ', 'y', 'e', 'a', 'r'], ['o', 's', 'h', 'u', ' ', 'b', 'e', 'l', 'u'], ['o', 's', 'h', 'u', ' ', 'i', 'g', 'b', 'e'], ['o', 's', 'h', 'u', ' ', 'o', 'g', 'u', 'n'], ['o', 's', 'u', ' ', 'a', 'g', 'e', 'm', 'o'], ['o', 's', 'u', ' ', 'e', 'b', 'i', 'b', 'i'], ['o', 's', 'u', ' ', 'e', 'r', 'e', 'l', 'e'], ['o', 's', 'u', ' ', 'e', 'r', 'e', 'n', 'a'], ['o', 's', 'u', ' ', 'o', 'k', 'u', 'd', 'u'], ['o', 's', 'u', ' ', 'o', 'w', 'a', 'r', 'a'], ['o', 's', 'u', ' ', 'o', 'w', 'e', 'w', 'e'], ['t', 'h', 'i', 's', ' ', 'h', 'o', 'u', 'r'], ['t', 'h', 'i', 's', ' ', 'w', 'e', 'e', 'k'], ['t', 'h', 'i', 's', ' ', 'y', 'e', 'a', 'r'], ['o', 'j', 'o', ' ', 'a', 'i', 'k', 'u'], ['o', 's', 'h', 'u', ' ', 'ɔ', 'p', 'ɛ'], ['o', 's', 'u', ' ', 'b', 'e', 'l', 'u'], ['o', 's', 'u', ' ', 'i', 'g', 'b', 'e'], ['o', 's', 'u', ' ', 'o', 'g', 'u', 'n'], ['o', 's', 'u', ' ', 's', 'e', 'r', 'e'], ['ɔ', 'j', 'ɔ', ' ', 'a', 'i', 'k', 'u'], ['a', 'b', 'a', 'm', 'e', 't', 'a'], ['a', 'b', 'a', 'm', 'ɛ', 't', 'a'], ['o', 'j', 'o', ' ', 'a', 'j', 'e'], ['o', 'j', 'o', ' ', 'e', 't', 'i'], ['o', 's', 'u', ' ', 'o', 'p', 'e'], ['ɔ', 'j', 'ɔ', ' ', 'a', 'j', 'e'], ['ɔ', 'j', 'ɔ', ' ', 'ɛ', 't', 'i'], ['i', 's', 'e', 'g', 'u', 'n'], ['i', 's', 'ɛ', 'g', 'u', 'n'], ['w', 'a', 'k', 'a', 't', 'i'], ['a', 'g', 'e', 'm', 'o'], ['a', 'g', 'ɛ', 'm', 'ɔ'], ['e', 'b', 'i', 'b', 'i'], ['e', 'r', 'e', 'l', 'e'], ['e', 'r', 'e', 'n', 'a'], ['i', 's', 'e', 'j', 'u'], ['i', 's', 'ɛ', 'j', 'u'], ['o', 'j', 'o', 'b', 'o'], ['o', 'j', 'o', 'r', 'u'], ['o', 'k', 'u', 'd', 'u'], ['o', 'w', 'a', 'r', 'a'], ['o', 'w', 'e', 'w', 'e'], ['s', 'h', 'ɛ', 'r', 'ɛ'], ['ɔ', 'j', 'ɔ', 'b', 'ɔ'], ['ɔ', 'j', 'ɔ', 'r', 'u'], ['ɔ', 'w', 'a', 'r', 'a'], ['ɛ', 'b', 'i', 'b', 'i'], ['ɛ', 'r', 'ɛ', 'n', 'a'], ['a', 'a', 'r', 'o'], ['a', 'a', 'r', 'ɔ'], ['a', 'i', 'k', 'u'], ['b', 'e', 'l', 'u'], ['i', 'g', 'b', 'e'], ['o', 'd', 'u', 'n'], ['o', 'g', 'u', 'n'], ['o', 's', 'a', 'n'], ['s', 'e', 'r', 'e'], ['ɔ', 'd', 'u', 'n'], ['ɔ', 's', 'a', 'n'], ['a', 'j', 'e'], ['a', 'n', 'a'], ['e', 't', 'i'], ['g', 'm', 't'], ['n', 'o', 'w'], ['o', 'j', 'o'], ['o', 'l', 'a'], ['o', 'n', 'i'], ['o', 'p', 'e'], ['o', 's', 'e'], ['o', 's', 'u'], ['u', 't', 'c'], ['ɔ', 'j', 'ɔ'], ['ɔ', 'l', 'a'], ['ɔ', 'p', 'ɛ'], ['ɔ', 's', 'e'], ['ɛ', 't', 'i'], ['a', 'm'], ['p', 'm'], [' '], ['\''], ['+'], [','], ['-'], ['.'], ['/'], [':'], [';'], ['@'], ['['], [']'], ['z'], ['|']] }

/-- internal/data/yue.go: `yue_Locale`. -/
def yueLang : LangData := { yueDict with
  relativeRegexes :=
   [(.seqs [.grp 1 (.number), .lit [' ', '個', '星', '期', '前']], [.ref 1, .lit [' ', 'w', 'e', 'e', 'k', ' ', 'a', 'g', 'o']]),
    (.seqs [.grp 1 (.number), .lit [' ', '個', '星', '期', '後']], [.lit ['i', 'n', ' '], .ref 1, .lit [' ', 'w', 'e', 'e', 'k']]),
    (.seqs [.grp 1 (.number), .lit [' ', '個', '月', '前']], [.ref 1, .lit [' ', 'm', 'o', 'n', 't', 'h', ' ', 'a', 'g', 'o']]),
    (.seqs [.grp 1 (.number), .lit [' ', '個', '月', '後']], [.lit ['i', 'n', ' '], .ref 1, .lit [' ', 'm', 'o', 'n', 't', 'h']]),
    (.seqs [.grp 1 (.number), .lit [' ', '分', '鐘', '前']], [.ref 1, .lit [' ', 'm', 'i', 'n', 'u', 't', 'e', ' ', 'a', 'g', 'o']]),
    (.seqs [.grp 1 (.number), .lit [' ', '分', '鐘', '後']], [.lit ['i', 'n', ' '], .ref 1, .lit [' ', 'm', 'i', 'n', 'u', 't', 'e']]),
    (.seqs [.grp 1 (.number), .lit [' ', '小', '時', '前']], [.ref 1, .lit [' ', 'h', 'o', 'u', 'r', ' ', 'a', 'g', 'o']]),
    (.seqs [.grp 1 (.number), .lit [' ', '小', '時', '後']], [.lit ['i', 'n', ' '], .ref 1, .lit [' ', 'h', 'o', 'u', 'r']]),
    (.seqs [.grp 1 (.number), .lit [' ', '年', '前']], [.ref 1, .lit [' ', 'y', 'e', 'a', 'r', ' ', 'a', 'g', 'o']]),
    (.seqs [.grp 1 (.number), .lit [' ', '年', '後']], [.lit ['i', 'n', ' '], .ref 1, .lit [' ', 'y', 'e', 'a', 'r']]),
    (.seqs [.grp 1 (.number), .lit [' ', '日', '前']], [.ref 1, .lit [' ', 'd', 'a', 'y', ' ', 'a', 'g', 'o']]),
    (.seqs [.grp 1 (.number), .lit [' ', '日', '後']], [.lit ['i', 'n', ' '], .ref 1, .lit [' ', 'd', 'a', 'y']]),
    (.seqs [.grp 1 (.number), .lit [' ', '秒', '前']], [.ref 1, .lit [' ', 's', 'e', 'c', 'o', 'n', 'd', ' ', 'a', 'g', 'o']]),
    (.seqs [.grp 1 (.number), .lit [' ', '秒', '後']], [.lit ['i', 'n', ' '], .ref 1, .lit [' ', 's', 'e', 'c', 'o', 'n', 'd']])],
  rxCombined := some (.grp 1 (.alts [.seqs [.number, .lit [' ', '個', '星', '期', '前']], .seqs [.number, .lit [' ', '個', '星', '期', '後']], .seqs [.number, .lit [' ', '個', '月', '前']], .seqs [.number, .lit [' ', '個', '月', '後']], .seqs [.number, .lit [' ', '分', '鐘', '前']], .seqs [.number, .lit [' ', '分', '鐘', '後']], .seqs [.number, .lit [' ', '小', '時', '前']], .seqs [.number, .lit [' ', '小', '時', '後']], .seqs [.number, .lit [' ', '年', '前']], .seqs [.number, .lit [' ', '年', '後']], .seqs [.number, .lit [' ', '日', '前']], .seqs [.number, .lit [' ', '日', '後']], .seqs [.number, .lit [' ', '秒', '前']], .seqs [.number, .lit [' ', '秒', '後']]]), 1),
  rxExact := some (.seqs [.bos, .grp 1 (.alts [.seqs [.number, .lit [' ', '個', '星', '期', '前']], .seqs [.number, .lit [' ', '個', '星', '期', '後']], .seqs [.number, .lit [' ', '個', '月', '前']], .seqs [.number, .lit [' ', '個', '月', '後']], .seqs [.number, .lit [' ', '分', '鐘', '前']], .seqs [.number, .lit [' ', '分', '鐘', '後']], .seqs [.number, .lit [' ', '小', '時', '前']], .seqs [.number, .lit [' ', '小', '時', '後']], .seqs [.number, .lit [' ', '年', '前']], .seqs [.number, .lit [' ', '年', '後']], .seqs [.number, .lit [' ', '日', '前']], .seqs [.number, .lit [' ', '日', '後']], .seqs [.number, .lit [' ', '秒', '前']], .seqs [.number, .lit [' ', '秒', '後']]]), .eos]),
  knownWords :=
   [['今', '個', '星', '期'], ['呢', '個', '小', '時'], ['1', '0', '月'], ['1', '1', '月'], ['1', '2', '月'], ['g', 'm', 't'], ['u', 't', 'c'], ['上', '個', '月'], ['上', '星', '期'], ['下', '個', '月'], ['下', '星', '期'], ['今', '個', '月'], ['呢', '分', '鐘'], ['星', '期', '一'], ['星', '期', '三'], ['星', '期', '二'], ['星', '期', '五'], ['星', '期', '六'], ['星', '期', '四'], ['星', '期', '日'], ['1', '月'], ['2', '月'], ['3', '月'], ['4', '月'], ['5', '月'], ['6', '月'], ['7', '月'], ['8', '月'], ['9', '月'], ['a', 'm'], ['p', 'm'], ['上', '午'], ['下', '午'], ['下', '年'], ['今', '年'], ['今', '日'], ['分', '鐘'], ['宜', '家'], ['尋', '日'], ['小', '時'], ['聽', '日'], ['舊', '年'], ['週', '一'], ['週', '三'], ['週', '二'], ['週', '五'], ['週', '六'], ['週', '四'], ['週', '日'], [' '], ['\''], ['+'], [','], ['-'], ['.'], ['/'], [':'], [';'], ['@'], ['['], [']'], ['z'], ['|'], ['年'], ['日'], ['月'], ['秒'], ['週']] }

/-- internal/data/zgh.go: `zgh_Locale`. -/
def zghLang : LangData := { zghDict with
  knownWords :=
   [['t', 'h', 'i', 's', ' ', 'm', 'i', 'n', 'u', 't', 'e'], ['l', 'a', 's', 't', ' ', 'm', 'o', 'n', 't', 'h'], ['n', 'e', 'x', 't', ' ', 'm', 'o', 'n', 't', 'h'], ['t', 'h', 'i', 's', ' ', 'm', 'o', 'n', 't', 'h'], ['l', 'a', 's', 't', ' ', 'w', 'e', 'e', 'k'], ['l', 'a', 's', 't', ' ', 'y', 'e', 'a', 'r'], ['n', 'e', 'x', 't', ' ', 'w', 'e', 'e', 'k'], ['n', 'e', 'x', 't', ' ', 'y', 'e', 'a', 'r'], ['t', 'h', 'i', 's', ' ', 'h', 'o', 'u', 'r'], ['t', 'h', 'i', 's', ' ', 'w', 'e', 'e', 'k'], ['t', 'h', 'i', 's', ' ', 'y', 'e', 'a', 'r'], ['ⴷ', 'ⵓ', 'ⵊ', 'ⴰ', 'ⵏ', 'ⴱ', 'ⵉ', 'ⵔ'], ['ⵏ', 'ⵓ', 'ⵡ', 'ⴰ', 'ⵏ', 'ⴱ', 'ⵉ', 'ⵔ'], ['ⵛ', 'ⵓ', 'ⵜ', 'ⴰ', 'ⵏ', 'ⴱ', 'ⵉ', 'ⵔ'], ['ⵜ', 'ⴰ', 'ⴷ', 'ⴳ', 'ⴳ', 'ⵡ', 'ⴰ', 'ⵜ'], ['ⴰ', 'ⵙ', 'ⴳ', 'ⴳ', 'ⵡ', 'ⴰ', 'ⵙ'], ['ⴰ', 'ⵙ', 'ⵉ', 'ⴹ', 'ⵢ', 'ⴰ', 'ⵙ'], ['ⴰ', 'ⵙ', 'ⵉ', 'ⵎ', 'ⵡ', 'ⴰ', 'ⵙ'], ['ⵉ', 'ⵎ', 'ⴰ', 'ⵍ', 'ⴰ', 'ⵙ', 'ⵙ'], ['ⵜ', 'ⴰ', 'ⵙ', 'ⵔ', 'ⴰ', 'ⴳ', 'ⵜ'], ['ⵜ', 'ⵓ', 'ⵙ', 'ⴷ', 'ⵉ', 'ⴷ', 'ⵜ'], ['ⴰ', 'ⵙ', 'ⴰ', 'ⵎ', 'ⴰ', 'ⵙ'], ['ⴰ', 'ⵙ', 'ⵉ', 'ⵏ', 'ⴰ', 'ⵙ'], ['ⵉ', 'ⵏ', 'ⵏ', 'ⴰ', 'ⵢ', 'ⵔ'], ['ⵜ', 'ⴰ', 'ⵙ', 'ⵉ', 'ⵏ', 'ⵜ'], ['ⵜ', 'ⵉ', 'ⴼ', 'ⴰ', 'ⵡ', 'ⵜ'], ['ⵢ', 'ⵓ', 'ⵍ', 'ⵢ', 'ⵓ', 'ⵣ'], ['ⴰ', 'ⴽ', 'ⵕ', 'ⴰ', 'ⵙ'], ['ⴰ', 'ⴽ', 'ⵡ', 'ⴰ', 'ⵙ'], ['ⴰ', 'ⵙ', 'ⴽ', 'ⴽ', 'ⴰ'], ['ⴰ', 'ⵢ', 'ⵏ', 'ⴰ', 'ⵙ'], ['ⴰ', 'ⵢ', 'ⵢ', 'ⵓ', 'ⵔ'], ['ⴱ', 'ⵕ', 'ⴰ', 'ⵢ', 'ⵕ'], ['ⴽ', 'ⵜ', 'ⵓ', 'ⴱ', 'ⵔ'], ['ⵉ', 'ⴱ', 'ⵔ', 'ⵉ', 'ⵔ'], ['ⵉ', 'ⴹ', 'ⵍ', 'ⵍ', 'ⵉ'], ['ⵎ', 'ⴰ', 'ⵢ', 'ⵢ', 'ⵓ'], ['ⵢ', 'ⵓ', 'ⵏ', 'ⵢ', 'ⵓ'], ['ⴰ', 'ⵙ', 'ⵉ', 'ⴹ'], ['ⴰ', 'ⵙ', 'ⵉ', 'ⵎ'], ['ⴰ', 'ⵙ', 'ⵙ', 'ⴰ'], ['ⵎ', 'ⴰ', 'ⵕ', 'ⵚ'], ['ⵖ', 'ⵓ', 'ⵛ', 'ⵜ'], ['g', 'm', 't'], ['n', 'o', 'w'], ['u', 't', 'c'], ['ⴰ', 'ⴽ', 'ⵕ'], ['ⴰ', 'ⴽ', 'ⵡ'], ['ⴰ', 'ⵙ', 'ⴰ'], ['ⴰ', 'ⵙ', 'ⵉ'], ['ⴰ', 'ⵙ', 'ⵙ'], ['ⴰ', 'ⵢ', 'ⵏ'], ['ⴱ', 'ⵕ', 'ⴰ'], ['ⴷ', 'ⵓ', 'ⵊ'], ['ⴽ', 'ⵜ', 'ⵓ'], ['ⵉ', 'ⴱ', 'ⵔ'], ['ⵉ', 'ⵏ', 'ⵏ'], ['ⵎ', 'ⴰ', 'ⵕ'], ['ⵎ', 'ⴰ', 'ⵢ'], ['ⵏ', 'ⵓ', 'ⵡ'], ['ⵖ', 'ⵓ', 'ⵛ'], ['ⵛ', 'ⵓ', 'ⵜ'], ['ⵢ', 'ⵓ', 'ⵍ'], ['ⵢ', 'ⵓ', 'ⵏ'], ['a', 'm'], ['p', 'm'], [' '], ['\''], ['+'], [','], ['-'], ['.'], ['/'], [':'], [';'], ['@'], ['['], [']'], ['z'], ['|']] }

/-- internal/data/zh-hans.go: `zh_Hans_Locale`. -/
def zh_HansLang : LangData := { zh_HansDict with
  relativeRegexes :=
   [(.seqs [.grp 1 (.number), .lit ['个', '月', '前']], [.ref 1, .lit [' ', 'm', 'o', 'n', 't', 'h', ' ', 'a', 'g', 'o']]),
    (.seqs [.grp 1 (.number), .lit ['个', '月', '后']], [.lit ['i', 'n', ' '], .ref 1, .lit [' ', 'm', 'o', 'n', 't', 'h']]),
    (.seqs [.grp 1 (.number), .lit ['分', '钟', '前']], [.ref 1, .lit [' ', 'm', 'i', 'n', 'u', 't', 'e', ' ', 'a', 'g', 'o']]),
    (.seqs [.grp 1 (.number), .lit ['分', '钟', '后']], [.lit ['i', 'n', ' '], .ref 1, .lit [' ', 'm', 'i', 'n', 'u', 't', 'e']]),
    (.seqs [.grp 1 (.number), .lit ['小', '时', '前']], [.ref 1, .lit [' ', 'h', 'o', 'u', 'r', ' ', 'a', 'g', 'o']]),
    (.seqs [.grp 1 (.number), .lit ['小', '时', '后']], [.lit ['i', 'n', ' '], .ref 1, .lit [' ', 'h', 'o', 'u', 'r']]),
    (.seqs [.grp 1 (.number), .lit ['秒', '钟', '前']], [.ref 1, .lit [' ', 's', 'e', 'c', 'o', 'n', 'd', ' ', 'a', 'g', 'o']]),
    (.seqs [.grp 1 (.number), .lit ['秒', '钟', '后']], [.lit ['i', 'n', ' '], .ref 1, .lit [' ', 's', 'e', 'c', 'o', 'n', 'd']]),
    (.seqs [.grp 1 (.number), .lit ['周', '前']], [.ref 1, .lit [' ', 'w', 'e', 'e', 'k', ' ', 'a', 'g', 'o']]),
    (.seqs [.grp 1 (.number), .lit ['周', '后']], [.lit ['i', 'n', ' '], .ref 1, .lit [' ', 'w', 'e', 'e', 'k']]),
    (.seqs [.grp 1 (.number), .lit ['天', '前']], [.ref 1, .lit [' ', 'd', 'a', 'y', ' ', 'a', 'g', 'o']]),
    (.seqs [.grp 1 (.number), .lit ['天', '后']], [.lit ['i', 'n', ' '], .ref 1, .lit [' ', 'd', 'a', 'y']]),
    (.seqs [.grp 1 (.number), .lit ['年', '前']], [.ref 1, .lit [' ', 'y', 'e', 'a', 'r', ' ', 'a', 'g', 'o']]),
    (.seqs [.grp 1 (.number), .lit ['年', '后']], [.lit ['i', 'n', ' '], .ref 1, .lit [' ', 'y', 'e', 'a', 'r']]),
    (.seqs [.grp 1 (.number), .lit ['秒', '前']], [.ref 1, .lit [' ', 's', 'e', 'c', 'o', 'n', 'd', ' ', 'a', 'g', 'o']]),
    (.seqs [.grp 1 (.number), .lit ['秒', '后']], [.lit ['i', 'n', ' '], .ref 1, .lit [' ', 's', 'e', 'c', 'o', 'n', 'd']])],
  rxCombined := some (.grp 1 (.alts [.seqs [.number, .lit ['个', '月', '前']], .seqs [.number, .lit ['个', '月', '后']], .seqs [.number, .lit ['分', '钟', '前']], .seqs [.number, .lit ['分', '钟', '后']], .seqs [.number, .lit ['小', '时', '前']], .seqs [.number, .lit ['小', '时', '后']], .seqs [.number, .lit ['秒', '钟', '前']], .seqs [.number, .lit ['秒', '钟', '后']], .seqs [.number, .lit ['周', '前']], .seqs [.number, .lit ['周', '后']], .seqs [.number, .lit ['天', '前']], .seqs [.number, .lit ['天', '后']], .seqs [.number, .lit ['年', '前']], .seqs [.number, .lit ['年', '后']], .seqs [.number, .lit ['秒', '前']], .seqs [.number, .lit ['秒', '后']]]), 1),
  rxExact := some (.seqs [.bos, .grp 1 (.alts [.seqs [.number, .lit ['个', '月', '前']], .seqs [.number, .lit ['个', '月', '后']], .seqs [.number, .lit ['分', '钟', '前']], .seqs [.number, .lit ['分', '钟', '后']], .seqs [.number, .lit ['小', '时', '前']], .seqs [.number, .lit ['小', '时', '后']], .seqs [.number, .lit ['秒', '钟', '前']], .seqs [.number, .lit ['秒', '钟', '后']], .seqs [.number, .lit ['周', '前']], .seqs [.number, .lit ['周', '后']], .seqs [.number, .lit ['天', '前']], .seqs [.number, .lit ['天', '后']], .seqs [.number, .lit ['年', '前']], .seqs [.number, .lit ['年', '后']], .seqs [.number, .lit ['秒', '前']], .seqs [.number, .lit ['秒', '后']]]), .eos]),
  knownWords :=
   [['这', '一', '时', '间', ' ', '/', ' ', '此', '时'], ['这', '一', '时', '间'], ['1', '0', '月'], ['1', '1', '月'], ['1', '2', '月'], ['g', 'm', 't'], ['u', 't', 'c'], ['上', '个', '月'], ['下', '个', '月'], ['十', '一', '月'], ['十', '二', '月'], ['星', '期', '一'], ['星', '期', '三'], ['星', '期', '二'], ['星', '期', '五'], ['星', '期', '六'], ['星', '期', '四'], ['星', '期', '日'], ['1', '月'], ['2', '月'], ['3', '月'], ['4', '月'], ['5', '月'], ['6', '月'], ['7', '月'], ['8', '月'], ['9', '月'], ['a', 'm'], ['p', 'm'], ['一', '月'], ['七', '月'], ['三', '月'], ['上', '午'], ['上', '周'], ['下', '午'], ['下', '周'], ['九', '月'], ['二', '月'], ['五', '月'], ['今', '天'], ['今', '年'], ['八', '月'], ['六', '月'], ['分', '钟'], ['刚', '刚'], ['前', '天'], ['十', '月'], ['去', '年'], ['后', '天'], ['周', '一'], ['周', '三'], ['周', '二'], ['周', '五'], ['周', '六'], ['周', '四'], ['周', '日'], ['四', '月'], ['小', '时'], ['明', '天'], ['明', '年'], ['昨', '天'], ['本', '周'], ['本', '月'], ['此', '刻'], ['此', '时'], ['现', '在'], [' '], ['\''], ['+'], [','], ['-'], ['.'], ['/'], [':'], [';'], ['@'], ['['], [']'], ['z'], ['|'], ['分'], ['周'], ['年'], ['日'], ['月'], ['秒']] }

/-- internal/data/zh-hans.go: `zh_Hans_HK_Locale`. -/
def zh_Hans_HKLang : LangData := zh_Hans_HKDict

/-- internal/data/zh-hans.go: `zh_Hans_MO_Locale`. -/
def zh_Hans_MOLang : LangData := zh_Hans_MODict

/-- internal/data/zh-hans.go: `zh_Hans_SG_Locale`. -/
def zh_Hans_SGLang : LangData := zh_Hans_SGDict

/-- internal/data/zh-hant.go: `zh_Hant_Locale`. -/
def zh_HantLang : LangData := { zh_HantDict with
  relativeRegexes :=
   [(.seqs [.grp 1 (.number), .lit [' ', '個', '月', '前']], [.ref 1, .lit [' ', 'm', 'o', 'n', 't', 'h', ' ', 'a', 'g', 'o']]),
    (.seqs [.grp 1 (.number), .lit [' ', '個', '月', '後']], [.lit ['i', 'n', ' '], .ref 1, .lit [' ', 'm', 'o', 'n', 't', 'h']]),
    (.seqs [.grp 1 (.number), .lit [' ', '分', '鐘', '前']], [.ref 1, .lit [' ', 'm', 'i', 'n', 'u', 't', 'e', ' ', 'a', 'g', 'o']]),
    (.seqs [.grp 1 (.number), .lit [' ', '分', '鐘', '後']], [.lit ['i', 'n', ' '], .ref 1, .lit [' ', 'm', 'i', 'n', 'u', 't', 'e']]),
    (.seqs [.grp 1 (.number), .lit [' ', '小', '時', '前']], [.ref 1, .lit [' ', 'h', 'o', 'u', 'r', ' ', 'a', 'g', 'o']]),
    (.seqs [.grp 1 (.number), .lit [' ', '小', '時', '後']], [.lit ['i', 'n', ' '], .ref 1, .lit [' ', 'h', 'o', 'u', 'r']]),
    (.seqs [.grp 1 (.number), .lit [' ', '天', '前']], [.ref 1, .lit [' ', 'd', 'a', 'y', ' ', 'a', 'g', 'o']]),
    (.seqs [.grp 1 (.number), .lit [' ', '天', '後']], [.lit ['i', 'n', ' '], .ref 1, .lit [' ', 'd', 'a', 'y']]),
    (.seqs [.grp 1 (.number), .lit [' ', '年', '前']], [.ref 1, .lit [' ', 'y', 'e', 'a', 'r', ' ', 'a', 'g', 'o']]),
    (.seqs [.grp 1 (.number), .lit [' ', '年', '後']], [.lit ['i', 'n', ' '], .ref 1, .lit [' ', 'y', 'e', 'a', 'r']]),
    (.seqs [.grp 1 (.number), .lit [' ', '秒', '前']], [.ref 1, .lit [' ', 's', 'e', 'c', 'o', 'n', 'd', ' ', 'a', 'g', 'o']]),
    (.seqs [.grp 1 (.number), .lit [' ', '秒', '後']], [.lit ['i', 'n', ' '], .ref 1, .lit [' ', 's', 'e', 'c', 'o', 'n', 'd']]),
    (.seqs [.grp 1 (.number), .lit [' ', '週', '前']], [.ref 1, .lit [' ', 'w', 'e', 'e', 'k', ' ', 'a', 'g', 'o']]),
    (.seqs [.grp 1 (.number), .lit [' ', '週', '後']], [.lit ['i', 'n', ' '], .ref 1, .lit [' ', 'w', 'e', 'e', 'k']])],
  rxCombined := some (.grp 1 (.alts [.seqs [.number, .lit [' ', '個', '月', '前']], .seqs [.number, .lit [' ', '個', '月', '後']], .seqs [.number, .lit [' ', '分', '鐘', '前']], .seqs [.number, .lit [' ', '分', '鐘', '後']], .seqs [.number, .lit [' ', '小', '時', '前']], .seqs [.number, .lit [' ', '小', '時', '後']], .seqs [.number, .lit [' ', '天', '前']], .seqs [.number, .lit [' ', '天', '後']], .seqs [.number, .lit [' ', '年', '前']], .seqs [.number, .lit [' ', '年', '後']], .seqs [.number, .lit [' ', '秒', '前']], .seqs [.number, .lit [' ', '秒', '後']], .seqs [.number, .lit [' ', '週', '前']], .seqs [.number, .lit [' ', '週', '後']]]), 1),
  rxExact := some (.seqs [.bos, .grp 1 (.alts [.seqs [.number, .lit [' ', '個', '月', '前']], .seqs [.number, .lit [' ', '個', '月', '後']], .seqs [.number, .lit [' ', '分', '鐘', '前']], .seqs [.number, .lit [' ', '分', '鐘', '後']], .seqs [.number, .lit [' ', '小', '時', '前']], .seqs [.number, .lit [' ', '小', '時', '後']], .seqs [.number, .lit [' ', '天', '前']], .seqs [.number, .lit [' ', '天', '後']], .seqs [.number, .lit [' ', '年', '前']], .seqs [.number, .lit [' ', '年', '後']], .seqs [.number, .lit [' ', '秒', '前']], .seqs [.number, .lit [' ', '秒', '後']], .seqs [.number, .lit [' ', '週', '前']], .seqs [.number, .lit [' ', '週', '後']]]), .eos]),
  knownWords :=
   [['這', '一', '分', '鐘'], ['這', '一', '小', '時'], ['1', '0', '月'], ['1', '1', '月'], ['1', '2', '月'], ['g', 'm', 't'], ['u', 't', 'c'], ['上', '個', '月'], ['下', '個', '月'], ['星', '期', '一'], ['星', '期', '三'], ['星', '期', '二'], ['星', '期', '五'], ['星', '期', '六'], ['星', '期', '四'], ['星', '期', '日'], ['1', '月'], ['2', '月'], ['3', '月'], ['4', '月'], ['5', '月'], ['6', '月'], ['7', '月'], ['8', '月'], ['9', '月'], ['a', 'm'], ['p', 'm'], ['上', '午'], ['上', '週'], ['下', '午'], ['下', '週'], ['今', '天'], ['今', '年'], ['分', '鐘'], ['去', '年'], ['小', '時'], ['明', '天'], ['明', '年'], ['昨', '天'], ['本', '月'], ['本', '週'], ['現', '在'], ['週', '一'], ['週', '三'], ['週', '二'], ['週', '五'], ['週', '六'], ['週', '四'], ['週', '日'], [' '], ['\''], ['+'], [','], ['-'], ['.'], ['/'], [':'], [';'], ['@'], ['['], [']'], ['z'], ['|'], ['年'], ['日'], ['月'], ['秒'], ['週']] }

/-- internal/data/zh-hant.go: `zh_Hant_HK_Locale`. -/
def zh_Hant_HKLang : LangData := { zh_Hant_HKDict with
  relativeRegexes :=
   [(.seqs [.grp 1 (.number), .lit [' ', '星', '期', '前']], [.ref 1, .lit [' ', 'w', 'e', 'e', 'k', ' ', 'a', 'g', 'o']]),
    (.seqs [.grp 1 (.number), .lit [' ', '星', '期', '後']], [.lit ['i', 'n', ' '], .ref 1, .lit [' ', 'w', 'e', 'e', 'k']]),
    (.seqs [.grp 1 (.number), .lit [' ', '日', '前']], [.ref 1, .lit [' ', 'd', 'a', 'y', ' ', 'a', 'g', 'o']]),
    (.seqs [.grp 1 (.number), .lit [' ', '日', '後']], [.lit ['i', 'n', ' '], .ref 1, .lit [' ', 'd', 'a', 'y']]),
    (.seqs [.grp 1 (.number), .lit ['個', '月', '前']], [.ref 1, .lit [' ', 'm', 'o', 'n', 't', 'h', ' ', 'a', 'g', 'o']]),
    (.seqs [.grp 1 (.number), .lit ['個', '月', '後']], [.lit ['i', 'n', ' '], .ref 1, .lit [' ', 'm', 'o', 'n', 't', 'h']]),
    (.seqs [.grp 1 (.number), .lit ['小', '時', '前']], [.ref 1, .lit [' ', 'h', 'o', 'u', 'r', ' ', 'a', 'g', 'o']]),
    (.seqs [.grp 1 (.number), .lit ['小', '時', '後']], [.lit ['i', 'n', ' '], .ref 1, .lit [' ', 'h', 'o', 'u', 'r']]),
    (.seqs [.grp 1 (.number), .lit ['分', '前']], [.ref 1, .lit [' ', 'm', 'i', 'n', 'u', 't', 'e', ' ', 'a', 'g', 'o']]),
    (.seqs [.grp 1 (.number), .lit ['分', '後']], [.lit ['i', 'n', ' '], .ref 1, .lit [' ', 'm', 'i', 'n', 'u', 't', 'e']]),
    (.seqs [.grp 1 (.number), .lit ['年', '前']], [.ref 1, .lit [' ', 'y', 'e', 'a', 'r', ' ', 'a', 'g', 'o']]),
    (.seqs [.grp 1 (.number), .lit ['年', '後']], [.lit ['i', 'n', ' '], .ref 1, .lit [' ', 'y', 'e', 'a', 'r']]),
    (.seqs [.grp 1 (.number), .lit ['日', '前']], [.ref 1, .lit [' ', 'd', 'a', 'y', ' ', 'a', 'g', 'o']]),
    (.seqs [.grp 1 (.number), .lit ['日', '後']], [.lit ['i', 'n', ' '], .ref 1, .lit [' ', 'd', 'a', 'y']]),
    (.seqs [.grp 1 (.number), .lit ['秒', '前']], [.ref 1, .lit [' ', 's', 'e', 'c', 'o', 'n', 'd', ' ', 'a', 'g', 'o']]),
    (.seqs [.grp 1 (.number), .lit ['秒', '後']], [.lit ['i', 'n', ' '], .ref 1, .lit [' ', 's', 'e', 'c', 'o', 'n', 'd']]),
    (.seqs [.grp 1 (.number), .lit ['週', '前']], [.ref 1, .lit [' ', 'w', 'e', 'e', 'k', ' ', 'a', 'g', 'o']]),
    (.seqs [.grp 1 (.number), .lit ['週', '後']], [.lit ['i', 'n', ' '], .ref 1, .lit [' ', 'w', 'e', 'e', 'k']])],
  rxCombined := some (.grp 1 (.alts [.seqs [.number, .lit [' ', '個', '月', '前']], .seqs [.number, .lit [' ', '個', '月', '後']], .seqs [.number, .lit [' ', '分', '鐘', '前']], .seqs [.number, .lit [' ', '分', '鐘', '後']], .seqs [.number, .lit [' ', '小', '時', '前']], .seqs [.number, .lit [' ', '小', '時', '後']], .seqs [.number, .lit [' ', '星', '期', '前']], .seqs [.number, .lit [' ', '星', '期', '後']], .seqs [.number, .lit [' ', '天', '前']], .seqs [.number, .lit [' ', '天', '後']], .seqs [.number, .lit [' ', '年', '前']], .seqs [.number, .lit [' ', '年', '後']], .seqs [.number, .lit [' ', '日', '前']], .seqs [.number, .lit [' ', '日', '後']], .seqs [.number, .lit [' ', '秒', '前']], .seqs [.number, .lit [' ', '秒', '後']], .seqs [.number, .lit [' ', '週', '前']], .seqs [.number, .lit [' ', '週', '後']], .seqs [.number, .lit ['個', '月', '前']], .seqs [.number, .lit ['個', '月', '後']], .seqs [.number, .lit ['小', '時', '前']], .seqs [.number, .lit ['小', '時', '後']], .seqs [.number, .lit ['分', '前']], .seqs [.number, .lit ['分', '後']], .seqs [.number, .lit ['年', '前']], .seqs [.number, .lit ['年', '後']], .seqs [.number, .lit ['日', '前']], .seqs [.number, .lit ['日', '後']], .seqs [.number, .lit ['秒', '前']], .seqs [.number, .lit ['秒', '後']], .seqs [.number, .lit ['週', '前']], .seqs [.number, .lit ['週', '後']]]), 1),
  rxExact := some (.seqs [.bos, .grp 1 (.alts [.seqs [.number, .lit [' ', '個', '月', '前']], .seqs [.number, .lit [' ', '個', '月', '後']], .seqs [.number, .lit [' ', '分', '鐘', '前']], .seqs [.number, .lit [' ', '分', '鐘', '後']], .seqs [.number, .lit [' ', '小', '時', '前']], .seqs [.number, .lit [' ', '小', '時', '後']], .seqs [.number, .lit [' ', '星', '期', '前']], .seqs [.number, .lit [' ', '星', '期', '後']], .seqs [.number, .lit [' ', '天', '前']], .seqs [.number, .lit [' ', '天', '後']], .seqs [.number, .lit [' ', '年', '前']], .seqs [.number, .lit [' ', '年', '後']], .seqs [.number, .lit [' ', '日', '前']], .seqs [.number, .lit [' ', '日', '後']], .seqs [.number, .lit [' ', '秒', '前']], .seqs [.number, .lit [' ', '秒', '後']], .seqs [.number, .lit [' ', '週', '前']], .seqs [.number, .lit [' ', '週', '後']], .seqs [.number, .lit ['個', '月', '前']], .seqs [.number, .lit ['個', '月', '後']], .seqs [.number, .lit ['小', '時', '前']], .seqs [.number, .lit ['小', '時', '後']], .seqs [.number, .lit ['分', '前']], .seqs [.number, .lit ['分', '後']], .seqs [.number, .lit ['年', '前']], .seqs [.number, .lit ['年', '後']], .seqs [.number, .lit ['日', '前']], .seqs [.number, .lit ['日', '後']], .seqs [.number, .lit ['秒', '前']], .seqs [.number, .lit ['秒', '後']], .seqs [.number, .lit ['週', '前']], .seqs [.number, .lit ['週', '後']]]), .eos]),
  knownWords :=
   [['這', '一', '分', '鐘'], ['這', '一', '小', '時'], ['這', '個', '小', '時'], ['1', '0', '月'], ['1', '1', '月'], ['1', '2', '月'], ['g', 'm', 't'], ['u', 't', 'c'], ['上', '個', '月'], ['上', '星', '期'], ['下', '個', '月'], ['下', '星', '期'], ['星', '期', '一'], ['星', '期', '三'], ['星', '期', '二'], ['星', '期', '五'], ['星', '期', '六'], ['星', '期', '四'], ['星', '期', '日'], ['本', '星', '期'], ['這', '分', '鐘'], ['1', '月'], ['2', '月'], ['3', '月'], ['4', '月'], ['5', '月'], ['6', '月'], ['7', '月'], ['8', '月'], ['9', '月'], ['a', 'm'], ['p', 'm'], ['上', '午'], ['上', '年'], ['上', '月'], ['上', '週'], ['下', '午'], ['下', '年'], ['下', '月'], ['下', '週'], ['今', '天'], ['今', '年'], ['今', '日'], ['分', '鐘'], ['去', '年'], ['小', '時'], ['明', '天'], ['明', '年'], ['明', '日'], ['星', '期'], ['昨', '天'], ['昨', '日'], ['本', '月'], ['本', '週'], ['現', '在'], ['週', '一'], ['週', '三'], ['週', '二'], ['週', '五'], ['週', '六'], ['週', '四'], ['週', '日'], [' '], ['\''], ['+'], [','], ['-'], ['.'], ['/'], [':'], [';'], ['@'], ['['], [']'], ['z'], ['|'], ['分'], ['年'], ['日'], ['時'], ['月'], ['秒'], ['週']] }

/-- internal/data/zh-hant.go: `zh_Hant_MO_Locale`. -/
def zh_Hant_MOLang : LangData := { zh_Hant_MODict with
  relativeRegexes :=
   [(.seqs [.grp 1 (.number), .lit [' ', '星', '期', '前']], [.ref 1, .lit [' ', 'w', 'e', 'e', 'k', ' ', 'a', 'g', 'o']]),
    (.seqs [.grp 1 (.number), .lit [' ', '星', '期', '後']], [.lit ['i', 'n', ' '], .ref 1, .lit [' ', 'w', 'e', 'e', 'k']]),
    (.seqs [.grp 1 (.number), .lit [' ', '日', '前']], [.ref 1, .lit [' ', 'd', 'a', 'y', ' ', 'a', 'g', 'o']]),
    (.seqs [.grp 1 (.number), .lit [' ', '日', '後']], [.lit ['i', 'n', ' '], .ref 1, .lit [' ', 'd', 'a', 'y']]),
    (.seqs [.grp 1 (.number), .lit ['個', '月', '前']], [.ref 1, .lit [' ', 'm', 'o', 'n', 't', 'h', ' ', 'a', 'g', 'o']]),
    (.seqs [.grp 1 (.number), .lit ['個', '月', '後']], [.lit ['i', 'n', ' '], .ref 1, .lit [' ', 'm', 'o', 'n', 't', 'h']]),
    (.seqs [.grp 1 (.number), .lit ['小', '時', '前']], [.ref 1, .lit [' ', 'h', 'o', 'u', 'r', ' ', 'a', 'g', 'o']]),
    (.seqs [.grp 1 (.number), .lit ['小', '時', '後']], [.lit ['i', 'n', ' '], .ref 1, .lit [' ', 'h', 'o', 'u', 'r']]),
    (.seqs [.grp 1 (.number), .lit ['分', '前']], [.ref 1, .lit [' ', 'm', 'i', 'n', 'u', 't', 'e', ' ', 'a', 'g', 'o']]),
    (.seqs [.grp 1 (.number), .lit ['分', '後']], [.lit ['i', 'n', ' '], .ref 1, .lit [' ', 'm', 'i', 'n', 'u', 't', 'e']]),
    (.seqs [.grp 1 (.number), .lit ['年', '前']], [.ref 1, .lit [' ', 'y', 'e', 'a', 'r', ' ', 'a', 'g', 'o']]),
    (.seqs [.grp 1 (.number), .lit ['年', '後']], [.lit ['i', 'n', ' '], .ref 1, .lit [' ', 'y', 'e', 'a', 'r']]),
    (.seqs [.grp 1 (.number), .lit ['日', '前']], [.ref 1, .lit [' ', 'd', 'a', 'y', ' ', 'a', 'g', 'o']]),
    (.seqs [.grp 1 (.number), .lit ['日', '後']], [.lit ['i', 'n', ' '], .ref 1, .lit [' ', 'd', 'a', 'y']]),
    (.seqs [.grp 1 (.number), .lit ['秒', '前']], [.ref 1, .lit [' ', 's', 'e', 'c', 'o', 'n', 'd', ' ', 'a', 'g', 'o']]),
    (.seqs [.grp 1 (.number), .lit ['秒', '後']], [.lit ['i', 'n', ' '], .ref 1, .lit [' ', 's', 'e', 'c', 'o', 'n', 'd']]),
    (.seqs [.grp 1 (.number), .lit ['週', '前']], [.ref 1, .lit [' ', 'w', 'e', 'e', 'k', ' ', 'a', 'g', 'o']]),
    (.seqs [.grp 1 (.number), .lit ['週', '後']], [.lit ['i', 'n', ' '], .ref 1, .lit [' ', 'w', 'e', 'e', 'k']])],
  rxCombined := some (.grp 1 (.alts [.seqs [.number, .lit [' ', '個', '月', '前']], .seqs [.number, .lit [' ', '個', '月', '後']], .seqs [.number, .lit [' ', '分', '鐘', '前']], .seqs [.number, .lit [' ', '分', '鐘', '後']], .seqs [.number, .lit [' ', '小', '時', '前']], .seqs [.number, .lit [' ', '小', '時', '後']], .seqs [.number, .lit [' ', '星', '期', '前']], .seqs [.number, .lit [' ', '星', '期', '後']], .seqs [.number, .lit [' ', '天', '前']], .seqs [.number, .lit [' ', '天', '後']], .seqs [.number, .lit [' ', '年', '前']], .seqs [.number, .lit [' ', '年', '後']], .seqs [.number, .lit [' ', '日', '前']], .seqs [.number, .lit [' ', '日', '後']], .seqs [.number, .lit [' ', '秒', '前']], .seqs [.number, .lit [' ', '秒', '後']], .seqs [.number, .lit [' ', '週', '前']], .seqs [.number, .lit [' ', '週', '後']], .seqs [.number, .lit ['個', '月', '前']], .seqs [.number, .lit ['個', '月', '後']], .seqs [.number, .lit ['小', '時', '前']], .seqs [.number, .lit ['小', '時', '後']], .seqs [.number, .lit ['分', '前']], .seqs [.number, .lit ['分', '後']], .seqs [.number, .lit ['年', '前']], .seqs [.number, .lit ['年', '後']], .seqs [.number, .lit ['日', '前']], .seqs [.number, .lit ['日', '後']], .seqs [.number, .lit ['秒', '前']], .seqs [.number, .lit ['秒', '後']], .seqs [.number, .lit ['週', '前']], .seqs [.number, .lit ['週', '後']]]), 1),
  rxExact := some (.seqs [.bos, .grp 1 (.alts [.seqs [.number, .lit [' ', '個', '月', '前']], .seqs [.number, .lit [' ', '個', '月', '後']], .seqs [.number, .lit [' ', '分', '鐘', '前']], .seqs [.number, .lit [' ', '分', '鐘', '後']], .seqs [.number, .lit [' ', '小', '時', '前']], .seqs [.number, .lit [' ', '小', '時', '後']], .seqs [.number, .lit [' ', '星', '期', '前']], .seqs [.number, .lit [' ', '星', '期', '後']], .seqs [.number, .lit [' ', '天', '前']], .seqs [.number, .lit [' ', '天', '後']], .seqs [.number, .lit [' ', '年', '前']], .seqs [.number, .lit [' ', '年', '後']], .seqs [.number, .lit [' ', '日', '前']], .seqs [.number, .lit [' ', '日', '後']], .seqs [.number, .lit [' ', '秒', '前']], .seqs [.number, .lit [' ', '秒', '後']], .seqs [.number, .lit [' ', '週', '前']], .seqs [.number, .lit [' ', '週', '後']], .seqs [.number, .lit ['個', '月', '前']], .seqs [.number, .lit ['個', '月', '後']], .seqs [.number, .lit ['小', '時', '前']], .seqs [.number, .lit ['小', '時', '後']], .seqs [.number, .lit ['分', '前']], .seqs [.number, .lit ['分', '後']], .seqs [.number, .lit ['年', '前']], .seqs [.number, .lit ['年', '後']], .seqs [.number, .lit ['日', '前']], .seqs [.number, .lit ['日', '後']], .seqs [.number, .lit ['秒', '前']], .seqs [.number, .lit ['秒', '後']], .seqs [.number, .lit ['週', '前']], .seqs [.number, .lit ['週', '後']]]), .eos]),
  knownWords :=
   [['這', '一', '分', '鐘'], ['這', '一', '小', '時'], ['這', '個', '小', '時'], ['1', '0', '月'], ['1', '1', '月'], ['1', '2', '月'], ['g', 'm', 't'], ['u', 't', 'c'], ['上', '個', '月'], ['上', '星', '期'], ['下', '個', '月'], ['下', '星', '期'], ['星', '期', '一'], ['星', '期', '三'], ['星', '期', '二'], ['星', '期', '五'], ['星', '期', '六'], ['星', '期', '四'], ['星', '期', '日'], ['本', '星', '期'], ['這', '分', '鐘'], ['1', '月'], ['2', '月'], ['3', '月'], ['4', '月'], ['5', '月'], ['6', '月'], ['7', '月'], ['8', '月'], ['9', '月'], ['a', 'm'], ['p', 'm'], ['上', '午'], ['上', '年'], ['上', '月'], ['上', '週'], ['下', '午'], ['下', '年'], ['下', '月'], ['下', '週'], ['今', '天'], ['今', '年'], ['今', '日'], ['分', '鐘'], ['去', '年'], ['小', '時'], ['明', '天'], ['明', '年'], ['明', '日'], ['星', '期'], ['昨', '天'], ['昨', '日'], ['本', '月'], ['本', '週'], ['現', '在'], ['週', '一'], ['週', '三'], ['週', '二'], ['週', '五'], ['週', '六'], ['週', '四'], ['週', '日'], [' '], ['\''], ['+'], [','], ['-'], ['.'], ['/'], [':'], [';'], ['@'], ['['], [']'], ['z'], ['|'], ['分'], ['年'], ['日'], ['時'], ['月'], ['秒'], ['週']] }

/-- internal/data/zh.go: `zh_Locale`. -/
def zhLang : LangData := { zhDict with
  simplifications :=
   [(.lit ['半', '小', '时', '前'], [.lit ['3', '0', '分', '前']]),
    (.seqs [.alts [.lit ['中', '午'], .lit ['下', '午'], .seqs [.lit ['晚'], .opt (.lit ['上'])]], .star (.cls false [.space]), .grp 1 (.number), .star (.cls false [.space]), .lit [':'], .opt (.alts [.plus (.cls false [.space]), .lit [':']]), .grp 2 (.number)], [.ref 1, .lit [':'], .ref 2, .lit [' ', 'p', 'm']]),
    (.seqs [.alts [.lit ['上', '午'], .lit ['早', '上'], .lit ['凌', '晨']], .star (.cls false [.space]), .grp 1 (.number), .star (.cls false [.space]), .lit [':'], .opt (.alts [.plus (.cls false [.space]), .lit [':']]), .grp 2 (.number)], [.ref 1, .lit [':'], .ref 2, .lit [' ', 'a', 'm']]),
    (.lit ['中', '午'], [.lit ['1', '2', ':', '0', '0']]),
    (.seqs [.grp 1 (.number), .lit ['年'], .opt (.plus (.cls false [.space])), .grp 2 (.number), .lit ['月'], .opt (.plus (.cls false [.space])), .grp 3 (.number), .lit ['日'], .opt (.plus (.cls false [.space])), .grp 4 (.number), .lit ['时'], .opt (.plus (.cls false [.space])), .grp 5 (.number), .lit ['分']], [.ref 1, .lit ['-'], .ref 2, .lit ['-'], .ref 3, .lit [' '], .ref 4, .lit [':'], .ref 5]),
    (.seqs [.grp 1 (.number), .lit ['年'], .opt (.plus (.cls false [.space])), .grp 2 (.number), .lit ['月'], .opt (.plus (.cls false [.space])), .grp 3 (.rep (.cls false [.digit]) 1 2), .opt (.seqs [.lit ['日']]), .opt (.plus (.cls false [.space])), .grp 4 (.rep (.cls false [.digit]) 1 2), .alts [.lit ['点'], .lit [':']], .grp 5 (.rep (.cls false [.digit]) 1 2)], [.ref 1, .lit ['-'], .ref 2, .lit ['-'], .ref 3, .lit [' '], .ref 4, .lit [':'], .ref 5]),
    (.seqs [.grp 1 (.number), .lit ['年'], .opt (.plus (.cls false [.space])), .grp 2 (.number), .lit ['月'], .opt (.plus (.cls false [.space])), .grp 3 (.rep (.cls false [.digit]) 1 2), .opt (.seqs [.lit ['日']])], [.ref 1, .lit ['-'], .ref 2, .lit ['-'], .ref 3]),
    (.seqs [.grp 1 (.number), .lit ['月'], .grp 2 (.seqs [.star (.cls true [.rng '\n' '\n']), .cls false [.rng '前' '前', .rng '后' '后']])], [.ref 1, .lit [' ', '月'], .ref 2])],
  relativeRegexes :=
   [(.seqs [.grp 1 (.number), .lit ['个', '月', '前']], [.ref 1, .lit [' ', 'm', 'o', 'n', 't', 'h', ' ', 'a', 'g', 'o']]),
    (.seqs [.grp 1 (.number), .lit ['个', '月', '后']], [.lit ['i', 'n', ' '], .ref 1, .lit [' ', 'm', 'o', 'n', 't', 'h']]),
    (.seqs [.grp 1 (.number), .lit ['分', '钟', '前']], [.ref 1, .lit [' ', 'm', 'i', 'n', 'u', 't', 'e', ' ', 'a', 'g', 'o']]),
    (.seqs [.grp 1 (.number), .lit ['分', '钟', '后']], [.lit ['i', 'n', ' '], .ref 1, .lit [' ', 'm', 'i', 'n', 'u', 't', 'e']]),
    (.seqs [.grp 1 (.number), .lit ['小', '时', '前']], [.ref 1, .lit [' ', 'h', 'o', 'u', 'r', ' ', 'a', 'g', 'o']]),
    (.seqs [.grp 1 (.number), .lit ['小', '时', '后']], [.lit ['i', 'n', ' '], .ref 1, .lit [' ', 'h', 'o', 'u', 'r']]),
    (.seqs [.grp 1 (.number), .lit ['秒', '钟', '前']], [.ref 1, .lit [' ', 's', 'e', 'c', 'o', 'n', 'd', ' ', 'a', 'g', 'o']]),
    (.seqs [.grp 1 (.number), .lit ['秒', '钟', '后']], [.lit ['i', 'n', ' '], .ref 1, .lit [' ', 's', 'e', 'c', 'o', 'n', 'd']]),
    (.seqs [.grp 1 (.number), .lit ['周', '前']], [.ref 1, .lit [' ', 'w', 'e', 'e', 'k', ' ', 'a', 'g', 'o']]),
    (.seqs [.grp 1 (.number), .lit ['周', '后']], [.lit ['i', 'n', ' '], .ref 1, .lit [' ', 'w', 'e', 'e', 'k']]),
    (.seqs [.grp 1 (.number), .lit ['天', '前']], [.ref 1, .lit [' ', 'd', 'a', 'y', ' ', 'a', 'g', 'o']]),
    (.seqs [.grp 1 (.number), .lit ['天', '后']], [.lit ['i', 'n', ' '], .ref 1, .lit [' ', 'd', 'a', 'y']]),
    (.seqs [.grp 1 (.number), .lit ['年', '前']], [.ref 1, .lit [' ', 'y', 'e', 'a', 'r', ' ', 'a', 'g', 'o']]),
    (.seqs [.grp 1 (.number), .lit ['年', '后']], [.lit ['i', 'n', ' '], .ref 1, .lit [' ', 'y', 'e', 'a', 'r']]),
    (.seqs [.grp 1 (.number), .lit ['秒', '前']], [.ref 1, .lit [' ', 's', 'e', 'c', 'o', 'n', 'd', ' ', 'a', 'g', 'o']]),
    (.seqs [.grp 1 (.number), .lit ['秒', '后']], [.lit ['i', 'n', ' '], .ref 1, .lit [' ', 's', 'e', 'c', 'o', 'n', 'd']])],
  rxCombined := some (.grp 1 (.alts [.seqs [.number, .lit ['个', '月', '前']], .seqs [.number, .lit ['个', '月', '后']], .seqs [.number, .lit ['分', '钟', '前']], .seqs [.number, .lit ['分', '钟', '后']], .seqs [.number, .lit ['小', '时', '前']], .seqs [.number, .lit ['小', '时', '后']], .seqs [.number, .lit ['秒', '钟', '前']], .seqs [.number, .lit ['秒', '钟', '后']], .seqs [.number, .lit ['周', '前']], .seqs [.number, .lit ['周', '后']], .seqs [.number, .lit ['天', '前']], .seqs [.number, .lit ['天', '后']], .seqs [.number, .lit ['年', '前']], .seqs [.number, .lit ['年', '后']], .seqs [.number, .lit ['秒', '前']], .seqs [.number, .lit ['秒', '后']]]), 1),
  rxExact := some (.seqs [.bos, .grp 1 (.alts [.seqs [.number, .lit ['个', '月', '前']], .seqs [.number, .lit ['个', '月', '后']], .seqs [.number, .lit ['分', '钟', '前']], .seqs [.number, .lit ['分', '钟', '后']], .seqs [.number, .lit ['小', '时', '前']], .seqs [.number, .lit ['小', '时', '后']], .seqs [.number, .lit ['秒', '钟', '前']], .seqs [.number, .lit ['秒', '钟', '后']], .seqs [.number, .lit ['周', '前']], .seqs [.number, .lit ['周', '后']], .seqs [.number, .lit ['天', '前']], .seqs [.number, .lit ['天', '后']], .seqs [.number, .lit ['年', '前']], .seqs [.number, .lit ['年', '后']], .seqs [.number, .lit ['秒', '前']], .seqs [.number, .lit ['秒', '后']]]), .eos]),
  knownWords :=
   [['这', '一', '时', '间', ' ', '/', ' ', '此', '时'], ['这', '一', '时', '间'], ['1', '0', '月'], ['1', '1', '月'], ['1', '2', '月'], ['g', 'm', 't'], ['u', 't', 'c'], ['上', '个', '月'], ['下', '个', '月'], ['十', '一', '月'], ['十', '二', '月'], ['星', '期', '一'], ['星', '期', '三'], ['星', '期', '二'], ['星', '期', '五'], ['星', '期', '六'], ['星', '期', '四'], ['星', '期', '天'], ['星', '期', '日'], ['礼', '拜', '一'], ['礼', '拜', '三'], ['礼', '拜', '二'], ['礼', '拜', '五'], ['礼', '拜', '六'], ['礼', '拜', '四'], ['礼', '拜', '天'], ['礼', '拜', '日'], ['1', '月'], ['2', '月'], ['3', '月'], ['4', '月'], ['5', '月'], ['6', '月'], ['7', '月'], ['8', '月'], ['9', '月'], ['a', 'm'], ['p', 'm'], ['一', '月'], ['七', '月'], ['三', '月'], ['上', '午'], ['上', '周'], ['下', '午'], ['下', '周'], ['个', '月'], ['九', '月'], ['二', '月'], ['五', '月'], ['今', '天'], ['今', '年'], ['個', '月'], ['八', '月'], ['六', '月'], ['分', '钟'], ['刚', '刚'], ['前', '天'], ['十', '月'], ['去', '年'], ['后', '天'], ['周', '一'], ['周', '三'], ['周', '二'], ['周', '五'], ['周', '六'], ['周', '四'], ['周', '日'], ['四', '月'], ['小', '时'], ['明', '天'], ['明', '年'], ['星', '期'], ['昨', '天'], ['本', '周'], ['本', '月'], ['此', '刻'], ['此', '时'], ['现', '在'], [' '], ['\''], ['+'], [','], ['-'], ['.'], ['/'], [':'], [';'], ['@'], ['['], [']'], ['z'], ['|'], ['分'], ['前'], ['周'], ['在'], ['天'], ['年'], ['日'], ['月'], ['秒'], ['约']] }

/-- internal/data/zu.go: `zu_Locale`. -/
def zuLang : LangData := { zuDict with
  relativeRegexes :=
   [(.seqs [.grp 1 (.number), .lit [' ', 'a', 'm', 'a', 's', 'e', 'k', 'h', 'o', 'n', 'd', 'i', ' ', 'e', 'd', 'l', 'u', 'l', 'e']], [.ref 1, .lit [' ', 's', 'e', 'c', 'o', 'n', 'd', ' ', 'a', 'g', 'o']]),
    (.seqs [.grp 1 (.number), .lit [' ', 'i', 's', 'e', 'k', 'h', 'o', 'n', 'd', 'i', ' ', 'e', 'l', 'e', 'd', 'l', 'u', 'l', 'e']], [.ref 1, .lit [' ', 's', 'e', 'c', 'o', 'n', 'd', ' ', 'a', 'g', 'o']]),
    (.seqs [.grp 1 (.number), .lit [' ', 'i', 'z', 'i', 'n', 'y', 'a', 'n', 'g', 'a', ' ', 'e', 'z', 'e', 'd', 'l', 'u', 'l', 'e']], [.ref 1, .lit [' ', 'm', 'o', 'n', 't', 'h', ' ', 'a', 'g', 'o']]),
    (.seqs [.grp 1 (.number), .lit [' ', 'a', 'm', 'a', 'm', 'i', 'n', 'i', 't', 'h', 'i', ' ', 'e', 'd', 'l', 'u', 'l', 'e']], [.ref 1, .lit [' ', 'm', 'i', 'n', 'u', 't', 'e', ' ', 'a', 'g', 'o']]),
    (.seqs [.grp 1 (.number), .lit [' ', 'i', 'm', 'i', 'n', 'i', 't', 'h', 'i', ' ', 'e', 'l', 'e', 'd', 'l', 'u', 'l', 'e']], [.ref 1, .lit [' ', 'm', 'i', 'n', 'u', 't', 'e', ' ', 'a', 'g', 'o']]),
    (.seqs [.grp 1 (.number), .lit [' ', 'i', 'z', 'i', 'n', 's', 'u', 'k', 'u', ' ', 'e', 'z', 'e', 'd', 'l', 'u', 'l', 'e']], [.ref 1, .lit [' ', 'd', 'a', 'y', ' ', 'a', 'g', 'o']]),
    (.seqs [.grp 1 (.number), .lit [' ', 'i', 'm', 'i', 'n', 'y', 'a', 'k', 'a', ' ', 'e', 'd', 'l', 'u', 'l', 'e']], [.ref 1, .lit [' ', 'y', 'e', 'a', 'r', ' ', 'a', 'g', 'o']]),
    (.seqs [.grp 1 (.number), .lit [' ', 'u', 's', 'u', 'k', 'u', ' ', 'o', 'l', 'w', 'e', 'd', 'l', 'u', 'l', 'e']], [.ref 1, .lit [' ', 'd', 'a', 'y', ' ', 'a', 'g', 'o']]),
    (.seqs [.grp 1 (.number), .lit [' ', 'a', 'm', 'a', 'h', 'o', 'r', 'a', ' ', 'e', 'd', 'l', 'u', 'l', 'e']], [.ref 1, .lit [' ', 'h', 'o', 'u', 'r', ' ', 'a', 'g', 'o']]),
    (.seqs [.grp 1 (.number), .lit [' ', 'i', 'h', 'o', 'r', 'a', ' ', 'e', 'l', 'e', 'd', 'l', 'u', 'l', 'e']], [.ref 1, .lit [' ', 'h', 'o', 'u', 'r', ' ', 'a', 'g', 'o']]),
    (.seqs [.grp 1 (.number), .lit [' ', 'i', 'n', 'y', 'a', 'n', 'g', 'a', ' ', 'e', 'd', 'l', 'u', 'l', 'e']], [.ref 1, .lit [' ', 'm', 'o', 'n', 't', 'h', ' ', 'a', 'g', 'o']]),
    (.seqs [.grp 1 (.number), .lit [' ', 'u', 'n', 'y', 'a', 'k', 'a', ' ', 'o', 'd', 'l', 'u', 'l', 'e']], [.ref 1, .lit [' ', 'y', 'e', 'a', 'r', ' ', 'a', 'g', 'o']])],
  rxCombined := some (.seqs [.grp 1 (.alts [.bos, .cls true [.letter, .mark, .digit], .lit ['_']]), .grp 2 (.alts [.seqs [.number, .lit [' ', 'a', 'm', 'a', 's', 'e', 'k', 'h', 'o', 'n', 'd', 'i', ' ', 'e', 'd', 'l', 'u', 'l', 'e']], .seqs [.number, .lit [' ', 'i', 's', 'e', 'k', 'h', 'o', 'n', 'd', 'i', ' ', 'e', 'l', 'e', 'd', 'l', 'u', 'l', 'e']], .seqs [.number, .lit [' ', 'i', 'z', 'i', 'n', 'y', 'a', 'n', 'g', 'a', ' ', 'e', 'z', 'e', 'd', 'l', 'u', 'l', 'e']], .seqs [.number, .lit [' ', 'a', 'm', 'a', 'm', 'i', 'n', 'i', 't', 'h', 'i', ' ', 'e', 'd', 'l', 'u', 'l', 'e']], .seqs [.number, .lit [' ', 'i', 'm', 'i', 'n', 'i', 't', 'h', 'i', ' ', 'e', 'l', 'e', 'd', 'l', 'u', 'l', 'e']], .seqs [.number, .lit [' ', 'i', 'z', 'i', 'n', 's', 'u', 'k', 'u', ' ', 'e', 'z', 'e', 'd', 'l', 'u', 'l', 'e']], .seqs [.number, .lit [' ', 'i', 'm', 'i', 'n', 'y', 'a', 'k', 'a', ' ', 'e', 'd', 'l', 'u', 'l', 'e']], .seqs [.number, .lit [' ', 'u', 's', 'u', 'k', 'u', ' ', 'o', 'l', 'w', 'e', 'd', 'l', 'u', 'l', 'e']], .seqs [.number, .lit [' ', 'a', 'm', 'a', 'h', 'o', 'r', 'a', ' ', 'e', 'd', 'l', 'u', 'l', 'e']], .seqs [.number, .lit [' ', 'i', 'h', 'o', 'r', 'a', ' ', 'e', 'l', 'e', 'd', 'l', 'u', 'l', 'e']], .seqs [.number, .lit [' ', 'i', 'n', 'y', 'a', 'n', 'g', 'a', ' ', 'e', 'd', 'l', 'u', 'l', 'e']], .seqs [.number, .lit [' ', 'u', 'n', 'y', 'a', 'k', 'a', ' ', 'o', 'd', 'l', 'u', 'l', 'e']]]), .grp 3 (.alts [.eos, .cls true [.letter, .mark, .digit], .lit ['_']])], 3),
  rxExact := some (.seqs [.bos, .grp 1 (.alts [.seqs [.number, .lit [' ', 'a', 'm', 'a', 's', 'e', 'k', 'h', 'o', 'n', 'd', 'i', ' ', 'e', 'd', 'l', 'u', 'l', 'e']], .seqs [.number, .lit [' ', 'i', 's', 'e', 'k', 'h', 'o', 'n', 'd', 'i', ' ', 'e', 'l', 'e', 'd', 'l', 'u', 'l', 'e']], .seqs [.number, .lit [' ', 'i', 'z', 'i', 'n', 'y', 'a', 'n', 'g', 'a', ' ', 'e', 'z', 'e', 'd', 'l', 'u', 'l', 'e']], .seqs [.number, .lit [' ', 'a', 'm', 'a', 'm', 'i', 'n', 'i', 't', 'h', 'i', ' ', 'e', 'd', 'l', 'u', 'l', 'e']], .seqs [.number, .lit [' ', 'i', 'm', 'i', 'n', 'i', 't', 'h', 'i', ' ', 'e', 'l', 'e', 'd', 'l', 'u', 'l', 'e']], .seqs [.number, .lit [' ', 'i', 'z', 'i', 'n', 's', 'u', 'k', 'u', ' ', 'e', 'z', 'e', 'd', 'l', 'u', 'l', 'e']], .seqs [.number, .lit [' ', 'i', 'm', 'i', 'n', 'y', 'a', 'k', 'a', ' ', 'e', 'd', 'l', 'u', 'l', 'e']], .seqs [.number, .lit [' ', 'u', 's', 'u', 'k', 'u', ' ', 'o', 'l', 'w', 'e', 'd', 'l', 'u', 'l', 'e']], .seqs [.number, .lit [' ', 'a', 'm', 'a', 'h', 'o', 'r', 'a', ' ', 'e', 'd', 'l', 'u', 'l', 'e']], .seqs [.number, .lit [' ', 'i', 'h', 'o', 'r', 'a', ' ', 'e', 'l', 'e', 'd', 'l', 'u', 'l', 'e']], .seqs [.number, .lit [' ', 'i', 'n', 'y', 'a', 'n', 'g', 'a', ' ', 'e', 'd', 'l', 'u', 'l', 'e']], .seqs [.number, .lit [' ', 'u', 'n', 'y', 'a', 'k', 'a', ' ', 'o', 'd', 'l', 'u', 'l', 'e']]]), .eos]),
  knownWords :=
   [['o', 'n', 'y', 'a', 'k', 'e', 'n', 'i', ' ', 'o', 'd', 'l', 'u', 'l', 'e'], ['i', 'n', 'y', 'a', 'n', 'g', 'a', ' ', 'e', 'd', 'l', 'u', 'l', 'e'], ['i', 'v', 'i', 'k', 'i', ' ', 'e', 'l', 'e', 'd', 'l', 'u', 'l', 'e'], ['i', 'n', 'y', 'a', 'n', 'g', 'a', ' ', 'e', 'z', 'a', 'y', 'o'], ['i', 'v', 'i', 'k', 'i', ' ', 'e', 'l', 'i', 'z', 'a', 'y', 'o'], ['l', 'e', 'l', 'i', ' ', 'm', 'i', 'n', 'i', 't', 'h', 'i'], ['u', 'l', 'w', 'e', 's', 'i', 't', 'h', 'a', 't', 'h', 'u'], ['u', 'n', 'y', 'a', 'k', 'a', ' ', 'o', 'z', 'a', 'y', 'o'], ['u', 'l', 'w', 'e', 's', 'i', 'h', 'l', 'a', 'n', 'u'], ['u', 'm', 's', 'o', 'm', 'b', 'u', 'l', 'u', 'k', 'o'], ['k', 'u', 'l', 'o', ' ', 'n', 'y', 'a', 'k', 'a'], ['u', 'l', 'w', 'e', 's', 'i', 'b', 'i', 'l', 'i'], ['u', 'm', 'a', 's', 'i', 'n', 'g', 'a', 'n', 'a'], ['f', 'e', 'b', 'r', 'u', 'w', 'a', 'r', 'i'], ['i', 's', 'e', 'k', 'h', 'o', 'n', 'd', 'i'], ['l', 'e', ' ', 'n', 'y', 'a', 'n', 'g', 'a'], ['l', 'e', 'l', 'i', ' ', 'h', 'o', 'r', 'a'], ['l', 'e', 'l', 'i', ' ', 'v', 'i', 'k', 'i'], ['n', 'a', 'm', 'h', 'l', 'a', 'n', 'j', 'e'], ['s', 'e', 'p', 't', 'h', 'e', 'm', 'b', 'a'], ['u', 'm', 'g', 'q', 'i', 'b', 'e', 'l', 'o'], ['i', 'm', 'i', 'n', 'i', 't', 'h', 'i'], ['j', 'a', 'n', 'u', 'w', 'a', 'r', 'i'], ['u', 'l', 'w', 'e', 's', 'i', 'n', 'e'], ['d', 'i', 's', 'e', 'm', 'b', 'a'], ['e', 'p', 'h', 'r', 'e', 'l', 'i'], ['i', 'n', 'y', 'a', 'n', 'g', 'a'], ['n', 'o', 'v', 'e', 'm', 'b', 'a'], ['o', 'k', 't', 'h', 'o', 'b', 'a'], ['a', 'g', 'a', 's', 't', 'i'], ['i', 's', 'o', 'n', 't', 'o'], ['j', 'u', 'l', 'a', 'y', 'i'], ['k', 'u', 's', 'a', 's', 'a'], ['u', 'n', 'y', 'a', 'k', 'a'], ['i', 'h', 'o', 'r', 'a'], ['i', 'v', 'i', 'k', 'i'], ['i', 'z', 'o', 'l', 'o'], ['m', 'a', 'n', 'j', 'e'], ['m', 'a', 's', 'h', 'i'], ['u', 's', 'u', 'k', 'u'], ['j', 'u', 'n', 'i'], ['m', 'e', 'y', 'i'], ['a', 'g', 'a'], ['b', 'i', 'l'], ['d', 'i', 's'], ['e', 'p', 'h'], ['f', 'e', 'b'], ['g', 'm', 't'], ['h', 'l', 'a'], ['j', 'a', 'n'], ['j', 'u', 'l'], ['j', 'u', 'n'], ['m', 'a', 's'], ['m', 'e', 'y'], ['m', 'g', 'q'], ['m', 's', 'o'], ['n', 'o', 'v'], ['o', 'k', 't'], ['s', 'e', 'p'], ['s', 'i', 'n'], ['s', 'o', 'n'], ['t', 'h', 'a'], ['u', 't', 'c'], ['a', 'm'], ['p', 'm'], [' '], ['\''], ['+'], [','], ['-'], ['.'], ['/'], [':'], [';'], ['@'], ['['], [']'], ['z'], ['|']] }

end Verif.Data
