import Verif.Data.Dicts
/-! GENERATED by tools/gen_pats.py from /repo/internal/data; do not edit. -/
set_option autoImplicit false
set_option maxRecDepth 100000
namespace Verif.Data
open Verif.Model

/-- internal/data/sr-cyrl.go: `sr_Cyrl_BA_Locale`. -/
def sr_Cyrl_BALang : LangData := { sr_Cyrl_BADict with
  knownWords :=
   [['с', 'л', 'е', 'д', 'е', 'ћ', 'е', 'г', ' ', 'м', 'е', 'с', 'е', 'ц', 'а'], ['п', 'р', 'о', 'ш', 'л', 'о', 'г', ' ', 'м', 'е', 'с', 'е', 'ц', 'а'], ['с', 'л', 'е', 'д', 'е', 'ћ', 'е', ' ', 'г', 'о', 'д', 'и', 'н', 'е'], ['с', 'л', 'е', 'д', 'е', 'ћ', 'е', ' ', 'н', 'е', 'д', 'е', 'љ', 'е'], ['п', 'р', 'о', 'ш', 'л', 'е', ' ', 'г', 'о', 'д', 'и', 'н', 'е'], ['п', 'р', 'о', 'ш', 'л', 'е', ' ', 'н', 'е', 'д', 'е', 'љ', 'е'], ['о', 'в', 'о', 'г', ' ', 'м', 'е', 'с', 'е', 'ц', 'а'], ['о', 'в', 'о', 'г', ' ', 'м', 'и', 'н', 'у', 'т', 'а'], ['п', 'р', 'и', 'ј', 'е', ' ', 'п', 'о', 'д', 'н', 'е'], ['о', 'в', 'е', ' ', 'г', 'о', 'д', 'и', 'н', 'е'], ['о', 'в', 'е', ' ', 'н', 'е', 'д', 'е', 'љ', 'е'], ['о', 'в', 'о', 'г', ' ', 'с', 'а', 'т', 'а'], ['п', 'о', 'н', 'е', 'д', 'е', 'љ', 'а', 'к'], ['п', 'р', 'е', ' ', 'п', 'о', 'д', 'н', 'е'], ['с', 'е', 'п', 'т', 'е', 'м', 'б', 'а', 'р'], ['д', 'е', 'ц', 'е', 'м', 'б', 'а', 'р'], ['н', 'о', 'в', 'е', 'м', 'б', 'а', 'р'], ['п', 'о', ' ', 'п', 'о', 'д', 'н', 'е'], ['ч', 'е', 'т', 'в', 'р', 'т', 'а', 'к'], ['н', 'е', 'д', 'ј', 'е', 'љ', 'а'], ['о', 'к', 'т', 'о', 'б', 'а', 'р'], ['с', 'р', 'и', 'ј', 'е', 'д', 'а'], ['ф', 'е', 'б', 'р', 'у', 'а', 'р'], ['а', 'в', 'г', 'у', 'с', 'т'], ['г', 'о', 'д', 'и', 'н', 'а'], ['н', 'е', 'д', 'е', 'љ', 'а'], ['с', 'е', 'к', 'у', 'н', 'д'], ['с', 'у', 'б', 'о', 'т', 'а'], ['у', 'т', 'о', 'р', 'а', 'к'], ['ј', 'а', 'н', 'у', 'а', 'р'], ['а', 'п', 'р', 'и', 'л'], ['д', 'а', 'н', 'а', 'с'], ['м', 'е', 'с', 'е', 'ц'], ['м', 'и', 'н', 'у', 'т'], ['п', 'е', 'т', 'а', 'к'], ['с', 'р', 'е', 'д', 'а'], ['с', 'у', 'т', 'р', 'а'], ['м', 'а', 'р', 'т'], ['с', 'а', 'д', 'а'], ['с', 'е', 'п', 'т'], ['ј', 'у', 'ч', 'е'], ['g', 'm', 't'], ['u', 't', 'c'], ['а', 'в', 'г'], ['а', 'п', 'р'], ['г', 'о', 'д'], ['д', 'а', 'н'], ['д', 'е', 'ц'], ['м', 'а', 'р'], ['м', 'а', 'ј'], ['м', 'е', 'с'], ['м', 'и', 'н'], ['н', 'е', 'д'], ['н', 'о', 'в'], ['о', 'к', 'т'], ['п', 'е', 'т'], ['п', 'о', 'н'], ['с', 'а', 'т'], ['с', 'е', 'к'], ['с', 'е', 'п'], ['с', 'р', 'е'], ['с', 'у', 'б'], ['у', 'т', 'о'], ['ф', 'е', 'б'], ['ч', 'е', 'т'], ['ј', 'а', 'н'], ['ј', 'у', 'л'], ['ј', 'у', 'н'], ['a', 'm'], ['p', 'm'], ['с', 'р'], ['у', 'т'], [' '], ['\''], ['+'], [','], ['-'], ['.'], ['/'], [':'], [';'], ['@'], ['['], [']'], ['z'], ['|'], ['г'], ['д'], ['м'], ['н'], ['с'], ['ч']] }

/-- internal/data/sr-cyrl.go: `sr_Cyrl_ME_Locale`. -/
def sr_Cyrl_MELang : LangData := { sr_Cyrl_MEDict with
  knownWords :=
   [['с', 'л', 'е', 'д', 'е', 'ћ', 'е', 'г', ' ', 'м', 'е', 'с', 'е', 'ц', 'а'], ['п', 'р', 'о', 'ш', 'л', 'о', 'г', ' ', 'м', 'е', 'с', 'е', 'ц', 'а'], ['с', 'л', 'е', 'д', 'е', 'ћ', 'е', ' ', 'г', 'о', 'д', 'и', 'н', 'е'], ['с', 'л', 'е', 'д', 'е', 'ћ', 'е', ' ', 'н', 'е', 'д', 'е', 'љ', 'е'], ['п', 'р', 'о', 'ш', 'л', 'е', ' ', 'г', 'о', 'д', 'и', 'н', 'е'], ['п', 'р', 'о', 'ш', 'л', 'е', ' ', 'н', 'е', 'д', 'е', 'љ', 'е'], ['о', 'в', 'о', 'г', ' ', 'м', 'е', 'с', 'е', 'ц', 'а'], ['о', 'в', 'о', 'г', ' ', 'м', 'и', 'н', 'у', 'т', 'а'], ['п', 'р', 'и', 'ј', 'е', ' ', 'п', 'о', 'д', 'н', 'е'], ['о', 'в', 'е', ' ', 'г', 'о', 'д', 'и', 'н', 'е'], ['о', 'в', 'е', ' ', 'н', 'е', 'д', 'е', 'љ', 'е'], ['о', 'в', 'о', 'г', ' ', 'с', 'а', 'т', 'а'], ['п', 'о', 'н', 'е', 'д', 'е', 'љ', 'а', 'к'], ['п', 'р', 'е', ' ', 'п', 'о', 'д', 'н', 'е'], ['с', 'е', 'п', 'т', 'е', 'м', 'б', 'а', 'р'], ['д', 'е', 'ц', 'е', 'м', 'б', 'а', 'р'], ['н', 'о', 'в', 'е', 'м', 'б', 'а', 'р'], ['п', 'о', ' ', 'п', 'о', 'д', 'н', 'е'], ['ч', 'е', 'т', 'в', 'р', 'т', 'а', 'к'], ['н', 'е', 'д', 'ј', 'е', 'љ', 'а'], ['о', 'к', 'т', 'о', 'б', 'а', 'р'], ['с', 'р', 'и', 'ј', 'е', 'д', 'а'], ['ф', 'е', 'б', 'р', 'у', 'а', 'р'], ['а', 'в', 'г', 'у', 'с', 'т'], ['г', 'о', 'д', 'и', 'н', 'а'], ['н', 'е', 'д', 'е', 'љ', 'а'], ['с', 'е', 'к', 'у', 'н', 'д'], ['с', 'у', 'б', 'о', 'т', 'а'], ['у', 'т', 'о', 'р', 'а', 'к'], ['ј', 'а', 'н', 'у', 'а', 'р'], ['а', 'п', 'р', 'и', 'л'], ['д', 'а', 'н', 'а', 'с'], ['м', 'е', 'с', 'е', 'ц'], ['м', 'и', 'н', 'у', 'т'], ['п', 'е', 'т', 'а', 'к'], ['с', 'р', 'е', 'д', 'а'], ['с', 'у', 'т', 'р', 'а'], ['м', 'а', 'р', 'т'], ['с', 'а', 'д', 'а'], ['с', 'е', 'п', 'т'], ['ј', 'у', 'ч', 'е'], ['g', 'm', 't'], ['u', 't', 'c'], ['а', 'в', 'г'], ['а', 'п', 'р'], ['г', 'о', 'д'], ['д', 'а', 'н'], ['д', 'е', 'ц'], ['м', 'а', 'р'], ['м', 'а', 'ј'], ['м', 'е', 'с'], ['м', 'и', 'н'], ['н', 'е', 'д'], ['н', 'о', 'в'], ['о', 'к', 'т'], ['п', 'е', 'т'], ['п', 'о', 'н'], ['с', 'а', 'т'], ['с', 'е', 'к'], ['с', 'е', 'п'], ['с', 'р', 'е'], ['с', 'у', 'б'], ['у', 'т', 'о'], ['ф', 'е', 'б'], ['ч', 'е', 'т'], ['ј', 'а', 'н'], ['ј', 'у', 'л'], ['ј', 'у', 'н'], ['a', 'm'], ['p', 'm'], ['с', 'р'], ['у', 'т'], [' '], ['\''], ['+'], [','], ['-'], ['.'], ['/'], [':'], [';'], ['@'], ['['], [']'], ['z'], ['|'], ['г'], ['д'], ['м'], ['н'], ['с'], ['ч']] }

/-- internal/data/sr-cyrl.go: `sr_Cyrl_XK_Locale`. -/
def sr_Cyrl_XKLang : LangData := { sr_Cyrl_XKDict with
  knownWords :=
   [['с', 'л', 'е', 'д', 'е', 'ћ', 'е', 'г', ' ', 'м', 'е', 'с', 'е', 'ц', 'а'], ['п', 'р', 'о', 'ш', 'л', 'о', 'г', ' ', 'м', 'е', 'с', 'е', 'ц', 'а'], ['с', 'л', 'е', 'д', 'е', 'ћ', 'е', ' ', 'г', 'о', 'д', 'и', 'н', 'е'], ['с', 'л', 'е', 'д', 'е', 'ћ', 'е', ' ', 'н', 'е', 'д', 'е', 'љ', 'е'], ['п', 'р', 'о', 'ш', 'л', 'е', ' ', 'г', 'о', 'д', 'и', 'н', 'е'], ['п', 'р', 'о', 'ш', 'л', 'е', ' ', 'н', 'е', 'д', 'е', 'љ', 'е'], ['о', 'в', 'о', 'г', ' ', 'м', 'е', 'с', 'е', 'ц', 'а'], ['о', 'в', 'о', 'г', ' ', 'м', 'и', 'н', 'у', 'т', 'а'], ['о', 'в', 'е', ' ', 'г', 'о', 'д', 'и', 'н', 'е'], ['о', 'в', 'е', ' ', 'н', 'е', 'д', 'е', 'љ', 'е'], ['о', 'в', 'о', 'г', ' ', 'с', 'а', 'т', 'а'], ['п', 'о', 'н', 'е', 'д', 'е', 'љ', 'а', 'к'], ['п', 'р', 'е', ' ', 'п', 'о', 'д', 'н', 'е'], ['с', 'е', 'п', 'т', 'е', 'м', 'б', 'а', 'р'], ['д', 'е', 'ц', 'е', 'м', 'б', 'а', 'р'], ['н', 'о', 'в', 'е', 'м', 'б', 'а', 'р'], ['п', 'о', ' ', 'п', 'о', 'д', 'н', 'е'], ['ч', 'е', 'т', 'в', 'р', 'т', 'а', 'к'], ['о', 'к', 'т', 'о', 'б', 'а', 'р'], ['ф', 'е', 'б', 'р', 'у', 'а', 'р'], ['а', 'в', 'г', 'у', 'с', 'т'], ['г', 'о', 'д', 'и', 'н', 'а'], ['н', 'е', 'д', 'е', 'љ', 'а'], ['с', 'е', 'к', 'у', 'н', 'д'], ['с', 'у', 'б', 'о', 'т', 'а'], ['у', 'т', 'о', 'р', 'а', 'к'], ['ј', 'а', 'н', 'у', 'а', 'р'], ['а', 'п', 'р', 'и', 'л'], ['д', 'а', 'н', 'а', 'с'], ['м', 'е', 'с', 'е', 'ц'], ['м', 'и', 'н', 'у', 'т'], ['п', 'е', 'т', 'а', 'к'], ['с', 'р', 'е', 'д', 'а'], ['с', 'у', 'т', 'р', 'а'], ['м', 'а', 'р', 'т'], ['с', 'а', 'д', 'а'], ['с', 'е', 'п', 'т'], ['ј', 'у', 'ч', 'е'], ['g', 'm', 't'], ['u', 't', 'c'], ['а', 'в', 'г'], ['а', 'п', 'р'], ['г', 'о', 'д'], ['д', 'а', 'н'], ['д', 'е', 'ц'], ['м', 'а', 'р'], ['м', 'а', 'ј'], ['м', 'е', 'с'], ['м', 'и', 'н'], ['н', 'е', 'д'], ['н', 'о', 'в'], ['о', 'к', 'т'], ['п', 'е', 'т'], ['п', 'о', 'н'], ['с', 'а', 'т'], ['с', 'е', 'к'], ['с', 'е', 'п'], ['с', 'р', 'е'], ['с', 'у', 'б'], ['у', 'т', 'о'], ['ф', 'е', 'б'], ['ч', 'е', 'т'], ['ј', 'а', 'н'], ['ј', 'у', 'л'], ['ј', 'у', 'н'], ['a', 'm'], ['p', 'm'], ['с', 'р'], ['у', 'т'], [' '], ['\''], ['+'], [','], ['-'], ['.'], ['/'], [':'], [';'], ['@'], ['['], [']'], ['z'], ['|'], ['г'], ['д'], ['м'], ['н'], ['с'], ['ч']] }

/-- internal/data/sr-latn.go: `sr_Latn_Locale`. -/
def sr_LatnLang : LangData := { sr_LatnDict with
  relativeRegexes :=
   [(.seqs [.lit ['p', 'r', 'e', ' '], .grp 1 (.number), .lit [' ', 'n', 'e', 'd', 'e', 'l', 'j', 'a']], [.ref 1, .lit [' ', 'w', 'e', 'e', 'k', ' ', 'a', 'g', 'o']]),
    (.seqs [.lit ['p', 'r', 'e', ' '], .grp 1 (.number), .lit [' ', 'n', 'e', 'd', 'e', 'l', 'j', 'e']], [.ref 1, .lit [' ', 'w', 'e', 'e', 'k', ' ', 'a', 'g', 'o']]),
    (.seqs [.lit ['p', 'r', 'e', ' '], .grp 1 (.number), .lit [' ', 's', 'e', 'k', 'u', 'n', 'd', 'e']], [.ref 1, .lit [' ', 's', 'e', 'c', 'o', 'n', 'd', ' ', 'a', 'g', 'o']]),
    (.seqs [.lit ['p', 'r', 'e', ' '], .grp 1 (.number), .lit [' ', 's', 'e', 'k', 'u', 'n', 'd', 'i']], [.ref 1, .lit [' ', 's', 'e', 'c', 'o', 'n', 'd', ' ', 'a', 'g', 'o']]),
    (.seqs [.lit ['p', 'r', 'e', ' '], .grp 1 (.number), .lit [' ', 'g', 'o', 'd', 'i', 'n', 'a']], [.ref 1, .lit [' ', 'y', 'e', 'a', 'r', ' ', 'a', 'g', 'o']]),
    (.seqs [.lit ['p', 'r', 'e', ' '], .grp 1 (.number), .lit [' ', 'g', 'o', 'd', 'i', 'n', 'e']], [.ref 1, .lit [' ', 'y', 'e', 'a', 'r', ' ', 'a', 'g', 'o']]),
    (.seqs [.lit ['p', 'r', 'e', ' '], .grp 1 (.number), .lit [' ', 'm', 'e', 's', 'e', 'c', 'a']], [.ref 1, .lit [' ', 'm', 'o', 'n', 't', 'h', ' ', 'a', 'g', 'o']]),
    (.seqs [.lit ['p', 'r', 'e', ' '], .grp 1 (.number), .lit [' ', 'm', 'e', 's', 'e', 'c', 'i']], [.ref 1, .lit [' ', 'm', 'o', 'n', 't', 'h', ' ', 'a', 'g', 'o']]),
    (.seqs [.lit ['p', 'r', 'e', ' '], .grp 1 (.number), .lit [' ', 'm', 'i', 'n', 'u', 't', 'a']], [.ref 1, .lit [' ', 'm', 'i', 'n', 'u', 't', 'e', ' ', 'a', 'g', 'o']]),
    (.seqs [.lit ['z', 'a', ' '], .grp 1 (.number), .lit [' ', 'n', 'e', 'd', 'e', 'l', 'j', 'a']], [.lit ['i', 'n', ' '], .ref 1, .lit [' ', 'w', 'e', 'e', 'k']]),
    (.seqs [.lit ['z', 'a', ' '], .grp 1 (.number), .lit [' ', 'n', 'e', 'd', 'e', 'l', 'j', 'u']], [.lit ['i', 'n', ' '], .ref 1, .lit [' ', 'w', 'e', 'e', 'k']]),
    (.seqs [.lit ['z', 'a', ' '], .grp 1 (.number), .lit [' ', 's', 'e', 'k', 'u', 'n', 'd', 'i']], [.lit ['i', 'n', ' '], .ref 1, .lit [' ', 's', 'e', 'c', 'o', 'n', 'd']]),
    (.seqs [.lit ['z', 'a', ' '], .grp 1 (.number), .lit [' ', 's', 'e', 'k', 'u', 'n', 'd', 'u']], [.lit ['i', 'n', ' '], .ref 1, .lit [' ', 's', 'e', 'c', 'o', 'n', 'd']]),
    (.seqs [.lit ['z', 'a', ' '], .grp 1 (.number), .lit [' ', 'g', 'o', 'd', 'i', 'n', 'a']], [.lit ['i', 'n', ' '], .ref 1, .lit [' ', 'y', 'e', 'a', 'r']]),
    (.seqs [.lit ['z', 'a', ' '], .grp 1 (.number), .lit [' ', 'g', 'o', 'd', 'i', 'n', 'u']], [.lit ['i', 'n', ' '], .ref 1, .lit [' ', 'y', 'e', 'a', 'r']]),
    (.seqs [.lit ['z', 'a', ' '], .grp 1 (.number), .lit [' ', 'm', 'e', 's', 'e', 'c', 'i']], [.lit ['i', 'n', ' '], .ref 1, .lit [' ', 'm', 'o', 'n', 't', 'h']]),
    (.seqs [.lit ['z', 'a', ' '], .grp 1 (.number), .lit [' ', 'm', 'i', 'n', 'u', 't', 'a']], [.lit ['i', 'n', ' '], .ref 1, .lit [' ', 'm', 'i', 'n', 'u', 't', 'e']]),
    (.seqs [.lit ['p', 'r', 'e', ' '], .grp 1 (.number), .lit [' ', 'd', 'a', 'n', 'a']], [.ref 1, .lit [' ', 'd', 'a', 'y', ' ', 'a', 'g', 'o']]),
    (.seqs [.lit ['p', 'r', 'e', ' '], .grp 1 (.number), .lit [' ', 's', 'a', 't', 'a']], [.ref 1, .lit [' ', 'h', 'o', 'u', 'r', ' ', 'a', 'g', 'o']]),
    (.seqs [.lit ['p', 'r', 'e', ' '], .grp 1 (.number), .lit [' ', 's', 'a', 't', 'i']], [.ref 1, .lit [' ', 'h', 'o', 'u', 'r', ' ', 'a', 'g', 'o']]),
    (.seqs [.lit ['z', 'a', ' '], .grp 1 (.number), .lit [' ', 'm', 'e', 's', 'e', 'c']], [.lit ['i', 'n', ' '], .ref 1, .lit [' ', 'm', 'o', 'n', 't', 'h']]),
    (.seqs [.lit ['z', 'a', ' '], .grp 1 (.number), .lit [' ', 'm', 'i', 'n', 'u', 't']], [.lit ['i', 'n', ' '], .ref 1, .lit [' ', 'm', 'i', 'n', 'u', 't', 'e']]),
    (.seqs [.lit ['p', 'r', 'e', ' '], .grp 1 (.number), .lit [' ', 'g', 'o', 'd']], [.ref 1, .lit [' ', 'y', 'e', 'a', 'r', ' ', 'a', 'g', 'o']]),
    (.seqs [.lit ['p', 'r', 'e', ' '], .grp 1 (.number), .lit [' ', 'm', 'e', 's']], [.ref 1, .lit [' ', 'm', 'o', 'n', 't', 'h', ' ', 'a', 'g', 'o']]),
    (.seqs [.lit ['p', 'r', 'e', ' '], .grp 1 (.number), .lit [' ', 'm', 'i', 'n']], [.ref 1, .lit [' ', 'm', 'i', 'n', 'u', 't', 'e', ' ', 'a', 'g', 'o']]),
    (.seqs [.lit ['p', 'r', 'e', ' '], .grp 1 (.number), .lit [' ', 'n', 'e', 'd']], [.ref 1, .lit [' ', 'w', 'e', 'e', 'k', ' ', 'a', 'g', 'o']]),
    (.seqs [.lit ['p', 'r', 'e', ' '], .grp 1 (.number), .lit [' ', 's', 'e', 'k']], [.ref 1, .lit [' ', 's', 'e', 'c', 'o', 'n', 'd', ' ', 'a', 'g', 'o']]),
    (.seqs [.lit ['z', 'a', ' '], .grp 1 (.number), .lit [' ', 'd', 'a', 'n', 'a']], [.lit ['i', 'n', ' '], .ref 1, .lit [' ', 'd', 'a', 'y']]),
    (.seqs [.lit ['z', 'a', ' '], .grp 1 (.number), .lit [' ', 's', 'a', 't', 'i']], [.lit ['i', 'n', ' '], .ref 1, .lit [' ', 'h', 'o', 'u', 'r']]),
    (.seqs [.lit ['z', 'a', ' '], .grp 1 (.number), .lit [' ', 'd', 'a', 'n']], [.lit ['i', 'n', ' '], .ref 1, .lit [' ', 'd', 'a', 'y']]),
    (.seqs [.lit ['z', 'a', ' '], .grp 1 (.number), .lit [' ', 'g', 'o', 'd']], [.lit ['i', 'n', ' '], .ref 1, .lit [' ', 'y', 'e', 'a', 'r']]),
    (.seqs [.lit ['z', 'a', ' '], .grp 1 (.number), .lit [' ', 'm', 'e', 's']], [.lit ['i', 'n', ' '], .ref 1, .lit [' ', 'm', 'o', 'n', 't', 'h']]),
    (.seqs [.lit ['z', 'a', ' '], .grp 1 (.number), .lit [' ', 'm', 'i', 'n']], [.lit ['i', 'n', ' '], .ref 1, .lit [' ', 'm', 'i', 'n', 'u', 't', 'e']]),
    (.seqs [.lit ['z', 'a', ' '], .grp 1 (.number), .lit [' ', 'n', 'e', 'd']], [.lit ['i', 'n', ' '], .ref 1, .lit [' ', 'w', 'e', 'e', 'k']]),
    (.seqs [.lit ['z', 'a', ' '], .grp 1 (.number), .lit [' ', 's', 'a', 't']], [.lit ['i', 'n', ' '], .ref 1, .lit [' ', 'h', 'o', 'u', 'r']]),
    (.seqs [.lit ['z', 'a', ' '], .grp 1 (.number), .lit [' ', 's', 'e', 'k']], [.lit ['i', 'n', ' '], .ref 1, .lit [' ', 's', 'e', 'c', 'o', 'n', 'd']]),
    (.seqs [.lit ['p', 'r', 'e', ' '], .grp 1 (.number), .lit [' ', 'c']], [.ref 1, .lit [' ', 'h', 'o', 'u', 'r', ' ', 'a', 'g', 'o']]),
    (.seqs [.lit ['p', 'r', 'e', ' '], .grp 1 (.number), .lit [' ', 'd']], [.ref 1, .lit [' ', 'd', 'a', 'y', ' ', 'a', 'g', 'o']]),
    (.seqs [.lit ['p', 'r', 'e', ' '], .grp 1 (.number), .lit [' ', 'g']], [.ref 1, .lit [' ', 'y', 'e', 'a', 'r', ' ', 'a', 'g', 'o']]),
    (.seqs [.lit ['p', 'r', 'e', ' '], .grp 1 (.number), .lit [' ', 'm']], [.ref 1, .lit [' ', 'm', 'o', 'n', 't', 'h', ' ', 'a', 'g', 'o']]),
    (.seqs [.lit ['p', 'r', 'e', ' '], .grp 1 (.number), .lit [' ', 'n']], [.ref 1, .lit [' ', 'w', 'e', 'e', 'k', ' ', 'a', 'g', 'o']]),
    (.seqs [.lit ['p', 'r', 'e', ' '], .grp 1 (.number), .lit [' ', 's']], [.ref 1, .lit [' ', 's', 'e', 'c', 'o', 'n', 'd', ' ', 'a', 'g', 'o']]),
    (.seqs [.lit ['z', 'a', ' '], .grp 1 (.number), .lit [' ', 'c']], [.lit ['i', 'n', ' '], .ref 1, .lit [' ', 'h', 'o', 'u', 'r']]),
    (.seqs [.lit ['z', 'a', ' '], .grp 1 (.number), .lit [' ', 'd']], [.lit ['i', 'n', ' '], .ref 1, .lit [' ', 'd', 'a', 'y']]),
    (.seqs [.lit ['z', 'a', ' '], .grp 1 (.number), .lit [' ', 'g']], [.lit ['i', 'n', ' '], .ref 1, .lit [' ', 'y', 'e', 'a', 'r']]),
    (.seqs [.lit ['z', 'a', ' '], .grp 1 (.number), .lit [' ', 'm']], [.lit ['i', 'n', ' '], .ref 1, .lit [' ', 'm', 'o', 'n', 't', 'h']]),
    (.seqs [.lit ['z', 'a', ' '], .grp 1 (.number), .lit [' ', 'n']], [.lit ['i', 'n', ' '], .ref 1, .lit [' ', 'w', 'e', 'e', 'k']]),
    (.seqs [.lit ['z', 'a', ' '], .grp 1 (.number), .lit [' ', 's']], [.lit ['i', 'n', ' '], .ref 1, .lit [' ', 's', 'e', 'c', 'o', 'n', 'd']])],
  rxCombined := some (.seqs [.grp 1 (.alts [.bos, .cls true [.letter, .mark, .digit], .lit ['_']]), .grp 2 (.alts [.seqs [.lit ['p', 'r', 'e', ' '], .number, .lit [' ', 'n', 'e', 'd', 'e', 'l', 'j', 'a']], .seqs [.lit ['p', 'r', 'e', ' '], .number, .lit [' ', 'n', 'e', 'd', 'e', 'l', 'j', 'e']], .seqs [.lit ['p', 'r', 'e', ' '], .number, .lit [' ', 's', 'e', 'k', 'u', 'n', 'd', 'e']], .seqs [.lit ['p', 'r', 'e', ' '], .number, .lit [' ', 's', 'e', 'k', 'u', 'n', 'd', 'i']], .seqs [.lit ['p', 'r', 'e', ' '], .number, .lit [' ', 'g', 'o', 'd', 'i', 'n', 'a']], .seqs [.lit ['p', 'r', 'e', ' '], .number, .lit [' ', 'g', 'o', 'd', 'i', 'n', 'e']], .seqs [.lit ['p', 'r', 'e', ' '], .number, .lit [' ', 'm', 'e', 's', 'e', 'c', 'a']], .seqs [.lit ['p', 'r', 'e', ' '], .number, .lit [' ', 'm', 'e', 's', 'e', 'c', 'i']], .seqs [.lit ['p', 'r', 'e', ' '], .number, .lit [' ', 'm', 'i', 'n', 'u', 't', 'a']], .seqs [.lit ['z', 'a', ' '], .number, .lit [' ', 'n', 'e', 'd', 'e', 'l', 'j', 'a']], .seqs [.lit ['z', 'a', ' '], .number, .lit [' ', 'n', 'e', 'd', 'e', 'l', 'j', 'u']], .seqs [.lit ['z', 'a', ' '], .number, .lit [' ', 's', 'e', 'k', 'u', 'n', 'd', 'i']], .seqs [.lit ['z', 'a', ' '], .number, .lit [' ', 's', 'e', 'k', 'u', 'n', 'd', 'u']], .seqs [.lit ['z', 'a', ' '], .number, .lit [' ', 'g', 'o', 'd', 'i', 'n', 'a']], .seqs [.lit ['z', 'a', ' '], .number, .lit [' ', 'g', 'o', 'd', 'i', 'n', 'u']], .seqs [.lit ['z', 'a', ' '], .number, .lit [' ', 'm', 'e', 's', 'e', 'c', 'i']], .seqs [.lit ['z', 'a', ' '], .number, .lit [' ', 'm', 'i', 'n', 'u', 't', 'a']], .seqs [.lit ['p', 'r', 'e', ' '], .number, .lit [' ', 'd', 'a', 'n', 'a']], .seqs [.lit ['p', 'r', 'e', ' '], .number, .lit [' ', 's', 'a', 't', 'a']], .seqs [.lit ['p', 'r', 'e', ' '], .number, .lit [' ', 's', 'a', 't', 'i']], .seqs [.lit ['z', 'a', ' '], .number, .lit [' ', 'm', 'e', 's', 'e', 'c']], .seqs [.lit ['z', 'a', ' '], .number, .lit [' ', 'm', 'i', 'n', 'u', 't']], .seqs [.lit ['p', 'r', 'e', ' '], .number, .lit [' ', 'g', 'o', 'd']], .seqs [.lit ['p', 'r', 'e', ' '], .number, .lit [' ', 'm', 'e', 's']], .seqs [.lit ['p', 'r', 'e', ' '], .number, .lit [' ', 'm', 'i', 'n']], .seqs [.lit ['p', 'r', 'e', ' '], .number, .lit [' ', 'n', 'e', 'd']], .seqs [.lit ['p', 'r', 'e', ' '], .number, .lit [' ', 's', 'e', 'k']], .seqs [.lit ['z', 'a', ' '], .number, .lit [' ', 'd', 'a', 'n', 'a']], .seqs [.lit ['z', 'a', ' '], .number, .lit [' ', 's', 'a', 't', 'i']], .seqs [.lit ['z', 'a', ' '], .number, .lit [' ', 'd', 'a', 'n']], .seqs [.lit ['z', 'a', ' '], .number, .lit [' ', 'g', 'o', 'd']], .seqs [.lit ['z', 'a', ' '], .number, .lit [' ', 'm', 'e', 's']], .seqs [.lit ['z', 'a', ' '], .number, .lit [' ', 'm', 'i', 'n']], .seqs [.lit ['z', 'a', ' '], .number, .lit [' ', 'n', 'e', 'd']], .seqs [.lit ['z', 'a', ' '], .number, .lit [' ', 's', 'a', 't']], .seqs [.lit ['z', 'a', ' '], .number, .lit [' ', 's', 'e', 'k']], .seqs [.lit ['p', 'r', 'e', ' '], .number, .lit [' ', 'c']], .seqs [.lit ['p', 'r', 'e', ' '], .number, .lit [' ', 'd']], .seqs [.lit ['p', 'r', 'e', ' '], .number, .lit [' ', 'g']], .seqs [.lit ['p', 'r', 'e', ' '], .number, .lit [' ', 'm']], .seqs [.lit ['p', 'r', 'e', ' '], .number, .lit [' ', 'n']], .seqs [.lit ['p', 'r', 'e', ' '], .number, .lit [' ', 's']], .seqs [.lit ['z', 'a', ' '], .number, .lit [' ', 'c']], .seqs [.lit ['z', 'a', ' '], .number, .lit [' ', 'd']], .seqs [.lit ['z', 'a', ' '], .number, .lit [' ', 'g']], .seqs [.lit ['z', 'a', ' '], .number, .lit [' ', 'm']], .seqs [.lit ['z', 'a', ' '], .number, .lit [' ', 'n']], .seqs [.lit ['z', 'a', ' '], .number, .lit [' ', 's']]]), .grp 3 (.alts [.eos, .cls true [.letter, .mark, .digit], .lit ['_']])], 3),
  rxExact := some (.seqs [.bos, .grp 1 (.alts [.seqs [.lit ['p', 'r', 'e', ' '], .number, .lit [' ', 'n', 'e', 'd', 'e', 'l', 'j', 'a']], .seqs [.lit ['p', 'r', 'e', ' '], .number, .lit [' ', 'n', 'e', 'd', 'e', 'l', 'j', 'e']], .seqs [.lit ['p', 'r', 'e', ' '], .number, .lit [' ', 's', 'e', 'k', 'u', 'n', 'd', 'e']], .seqs [.lit ['p', 'r', 'e', ' '], .number, .lit [' ', 's', 'e', 'k', 'u', 'n', 'd', 'i']], .seqs [.lit ['p', 'r', 'e', ' '], .number, .lit [' ', 'g', 'o', 'd', 'i', 'n', 'a']], .seqs [.lit ['p', 'r', 'e', ' '], .number, .lit [' ', 'g', 'o', 'd', 'i', 'n', 'e']], .seqs [.lit ['p', 'r', 'e', ' '], .number, .lit [' ', 'm', 'e', 's', 'e', 'c', 'a']], .seqs [.lit ['p', 'r', 'e', ' '], .number, .lit [' ', 'm', 'e', 's', 'e', 'c', 'i']], .seqs [.lit ['p', 'r', 'e', ' '], .number, .lit [' ', 'm', 'i', 'n', 'u', 't', 'a']], .seqs [.lit ['z', 'a', ' '], .number, .lit [' ', 'n', 'e', 'd', 'e', 'l', 'j', 'a']], .seqs [.lit ['z', 'a', ' '], .number, .lit [' ', 'n', 'e', 'd', 'e', 'l', 'j', 'u']], .seqs [.lit ['z', 'a', ' '], .number, .lit [' ', 's', 'e', 'k', 'u', 'n', 'd', 'i']], .seqs [.lit ['z', 'a', ' '], .number, .lit [' ', 's', 'e', 'k', 'u', 'n', 'd', 'u']], .seqs [.lit ['z', 'a', ' '], .number, .lit [' ', 'g', 'o', 'd', 'i', 'n', 'a']], .seqs [.lit ['z', 'a', ' '], .number, .lit [' ', 'g', 'o', 'd', 'i', 'n', 'u']], .seqs [.lit ['z', 'a', ' '], .number, .lit [' ', 'm', 'e', 's', 'e', 'c', 'i']], .seqs [.lit ['z', 'a', ' '], .number, .lit [' ', 'm', 'i', 'n', 'u', 't', 'a']], .seqs [.lit ['p', 'r', 'e', ' '], .number, .lit [' ', 'd', 'a', 'n', 'a']], .seqs [.lit ['p', 'r', 'e', ' '], .number, .lit [' ', 's', 'a', 't', 'a']], .seqs [.lit ['p', 'r', 'e', ' '], .number, .lit [' ', 's', 'a', 't', 'i']], .seqs [.lit ['z', 'a', ' '], .number, .lit [' ', 'm', 'e', 's', 'e', 'c']], .seqs [.lit ['z', 'a', ' '], .number, .lit [' ', 'm', 'i', 'n', 'u', 't']], .seqs [.lit ['p', 'r', 'e', ' '], .number, .lit [' ', 'g', 'o', 'd']], .seqs [.lit ['p', 'r', 'e', ' '], .number, .lit [' ', 'm', 'e', 's']], .seqs [.lit ['p', 'r', 'e', ' '], .number, .lit [' ', 'm', 'i', 'n']], .seqs [.lit ['p', 'r', 'e', ' '], .number, .lit [' ', 'n', 'e', 'd']], .seqs [.lit ['p', 'r', 'e', ' '], .number, .lit [' ', 's', 'e', 'k']], .seqs [.lit ['z', 'a', ' '], .number, .lit [' ', 'd', 'a', 'n', 'a']], .seqs [.lit ['z', 'a', ' '], .number, .lit [' ', 's', 'a', 't', 'i']], .seqs [.lit ['z', 'a', ' '], .number, .lit [' ', 'd', 'a', 'n']], .seqs [.lit ['z', 'a', ' '], .number, .lit [' ', 'g', 'o', 'd']], .seqs [.lit ['z', 'a', ' '], .number, .lit [' ', 'm', 'e', 's']], .seqs [.lit ['z', 'a', ' '], .number, .lit [' ', 'm', 'i', 'n']], .seqs [.lit ['z', 'a', ' '], .number, .lit [' ', 'n', 'e', 'd']], .seqs [.lit ['z', 'a', ' '], .number, .lit [' ', 's', 'a', 't']], .seqs [.lit ['z', 'a', ' '], .number, .lit [' ', 's', 'e', 'k']], .seqs [.lit ['p', 'r', 'e', ' '], .number, .lit [' ', 'c']], .seqs [.lit ['p', 'r', 'e', ' '], .number, .lit [' ', 'd']], .seqs [.lit ['p', 'r', 'e', ' '], .number, .lit [' ', 'g']], .seqs [.lit ['p', 'r', 'e', ' '], .number, .lit [' ', 'm']], .seqs [.lit ['p', 'r', 'e', ' '], .number, .lit [' ', 'n']], .seqs [.lit ['p', 'r', 'e', ' '], .number, .lit [' ', 's']], .seqs [.lit ['z', 'a', ' '], .number, .lit [' ', 'c']], .seqs [.lit ['z', 'a', ' '], .number, .lit [' ', 'd']], .seqs [.lit ['z', 'a', ' '], .number, .lit [' ', 'g']], .seqs [.lit ['z', 'a', ' '], .number, .lit [' ', 'm']], .seqs [.lit ['z', 'a', ' '], .number, .lit [' ', 'n']], .seqs [.lit ['z', 'a', ' '], .number, .lit [' ', 's']]]), .eos]),
  knownWords :=
   [['s', 'l', 'e', 'd', 'e', 'c', 'e', ' ', 'n', 'e', 'd', 'e', 'l', 'j', 'e'], ['s', 'l', 'e', 'd', 'e', 'c', 'e', 'g', ' ', 'm', 'e', 's', 'e', 'c', 'a'], ['p', 'r', 'o', 's', 'l', 'e', ' ', 'n', 'e', 'd', 'e', 'l', 'j', 'e'], ['p', 'r', 'o', 's', 'l', 'o', 'g', ' ', 'm', 'e', 's', 'e', 'c', 'a'], ['s', 'l', 'e', 'd', 'e', 'c', 'e', ' ', 'g', 'o', 'd', 'i', 'n', 'e'], ['p', 'r', 'o', 's', 'l', 'e', ' ', 'g', 'o', 'd', 'i', 'n', 'e'], ['o', 'v', 'e', ' ', 'n', 'e', 'd', 'e', 'l', 'j', 'e'], ['o', 'v', 'o', 'g', ' ', 'm', 'e', 's', 'e', 'c', 'a'], ['o', 'v', 'o', 'g', ' ', 'm', 'i', 'n', 'u', 't', 'a'], ['o', 'v', 'e', ' ', 'g', 'o', 'd', 'i', 'n', 'e'], ['p', 'o', 'n', 'e', 'd', 'e', 'l', 'j', 'a', 'k'], ['o', 'v', 'o', 'g', ' ', 's', 'a', 't', 'a'], ['p', 'r', 'e', ' ', 'p', 'o', 'd', 'n', 'e'], ['s', 'e', 'p', 't', 'e', 'm', 'b', 'a', 'r'], ['c', 'e', 't', 'v', 'r', 't', 'a', 'k'], ['d', 'e', 'c', 'e', 'm', 'b', 'a', 'r'], ['n', 'o', 'v', 'e', 'm', 'b', 'a', 'r'], ['p', 'o', ' ', 'p', 'o', 'd', 'n', 'e'], ['f', 'e', 'b', 'r', 'u', 'a', 'r'], ['n', 'e', 'd', 'e', 'l', 'j', 'a'], ['o', 'k', 't', 'o', 'b', 'a', 'r'], ['a', 'v', 'g', 'u', 's', 't'], ['g', 'o', 'd', 'i', 'n', 'a'], ['j', 'a', 'n', 'u', 'a', 'r'], ['s', 'e', 'k', 'u', 'n', 'd'], ['s', 'u', 'b', 'o', 't', 'a'], ['u', 't', 'o', 'r', 'a', 'k'], ['a', 'p', 'r', 'i', 'l'], ['d', 'a', 'n', 'a', 's'], ['m', 'e', 's', 'e', 'c'], ['m', 'i', 'n', 'u', 't'], ['p', 'e', 't', 'a', 'k'], ['s', 'r', 'e', 'd', 'a'], ['s', 'u', 't', 'r', 'a'], ['j', 'u', 'c', 'e'], ['m', 'a', 'r', 't'], ['s', 'a', 'd', 'a'], ['a', 'p', 'r'], ['a', 'v', 'g'], ['c', 'e', 't'], ['d', 'a', 'n'], ['d', 'e', 'c'], ['f', 'e', 'b'], ['g', 'm', 't'], ['g', 'o', 'd'], ['j', 'a', 'n'], ['j', 'u', 'l'], ['j', 'u', 'n'], ['m', 'a', 'j'], ['m', 'a', 'r'], ['m', 'e', 's'], ['m', 'i', 'n'], ['n', 'e', 'd'], ['n', 'o', 'v'], ['o', 'k', 't'], ['p', 'e', 't'], ['p', 'o', 'n'], ['s', 'a', 't'], ['s', 'e', 'k'], ['s', 'e', 'p'], ['s', 'r', 'e'], ['s', 'u', 'b'], ['u', 't', 'c'], ['u', 't', 'o'], ['a', 'm'], ['p', 'm'], [' '], ['\''], ['+'], [','], ['-'], ['.'], ['/'], [':'], [';'], ['@'], ['['], [']'], ['c'], ['d'], ['g'], ['m'], ['n'], ['s'], ['z'], ['|']] }

/-- internal/data/sr-latn.go: `sr_Latn_BA_Locale`. -/
def sr_Latn_BALang : LangData := { sr_Latn_BADict with
  knownWords :=
   [['s', 'l', 'e', 'd', 'e', 'c', 'e', ' ', 'n', 'e', 'd', 'e', 'l', 'j', 'e'], ['s', 'l', 'e', 'd', 'e', 'c', 'e', 'g', ' ', 'm', 'e', 's', 'e', 'c', 'a'], ['p', 'r', 'o', 's', 'l', 'e', ' ', 'n', 'e', 'd', 'e', 'l', 'j', 'e'], ['p', 'r', 'o', 's', 'l', 'o', 'g', ' ', 'm', 'e', 's', 'e', 'c', 'a'], ['s', 'l', 'e', 'd', 'e', 'c', 'e', ' ', 'g', 'o', 'd', 'i', 'n', 'e'], ['p', 'r', 'o', 's', 'l', 'e', ' ', 'g', 'o', 'd', 'i', 'n', 'e'], ['o', 'v', 'e', ' ', 'n', 'e', 'd', 'e', 'l', 'j', 'e'], ['o', 'v', 'o', 'g', ' ', 'm', 'e', 's', 'e', 'c', 'a'], ['o', 'v', 'o', 'g', ' ', 'm', 'i', 'n', 'u', 't', 'a'], ['p', 'r', 'i', 'j', 'e', ' ', 'p', 'o', 'd', 'n', 'e'], ['o', 'v', 'e', ' ', 'g', 'o', 'd', 'i', 'n', 'e'], ['p', 'o', 'n', 'e', 'd', 'e', 'l', 'j', 'a', 'k'], ['o', 'v', 'o', 'g', ' ', 's', 'a', 't', 'a'], ['p', 'r', 'e', ' ', 'p', 'o', 'd', 'n', 'e'], ['s', 'e', 'p', 't', 'e', 'm', 'b', 'a', 'r'], ['c', 'e', 't', 'v', 'r', 't', 'a', 'k'], ['d', 'e', 'c', 'e', 'm', 'b', 'a', 'r'], ['n', 'e', 'd', 'j', 'e', 'l', 'j', 'a'], ['n', 'o', 'v', 'e', 'm', 'b', 'a', 'r'], ['p', 'o', ' ', 'p', 'o', 'd', 'n', 'e'], ['f', 'e', 'b', 'r', 'u', 'a', 'r'], ['n', 'e', 'd', 'e', 'l', 'j', 'a'], ['o', 'k', 't', 'o', 'b', 'a', 'r'], ['s', 'r', 'i', 'j', 'e', 'd', 'a'], ['a', 'v', 'g', 'u', 's', 't'], ['g', 'o', 'd', 'i', 'n', 'a'], ['j', 'a', 'n', 'u', 'a', 'r'], ['s', 'e', 'k', 'u', 'n', 'd'], ['s', 'u', 'b', 'o', 't', 'a'], ['u', 't', 'o', 'r', 'a', 'k'], ['a', 'p', 'r', 'i', 'l'], ['d', 'a', 'n', 'a', 's'], ['m', 'e', 's', 'e', 'c'], ['m', 'i', 'n', 'u', 't'], ['p', 'e', 't', 'a', 'k'], ['s', 'r', 'e', 'd', 'a'], ['s', 'u', 't', 'r', 'a'], ['j', 'u', 'c', 'e'], ['m', 'a', 'r', 't'], ['s', 'a', 'd', 'a'], ['s', 'e', 'p', 't'], ['a', 'p', 'r'], ['a', 'v', 'g'], ['c', 'e', 't'], ['d', 'a', 'n'], ['d', 'e', 'c'], ['f', 'e', 'b'], ['g', 'm', 't'], ['g', 'o', 'd'], ['j', 'a', 'n'], ['j', 'u', 'l'], ['j', 'u', 'n'], ['m', 'a', 'j'], ['m', 'a', 'r'], ['m', 'e', 's'], ['m', 'i', 'n'], ['n', 'e', 'd'], ['n', 'o', 'v'], ['o', 'k', 't'], ['p', 'e', 't'], ['p', 'o', 'n'], ['s', 'a', 't'], ['s', 'e', 'k'], ['s', 'e', 'p'], ['s', 'r', 'e'], ['s', 'u', 'b'], ['u', 't', 'c'], ['u', 't', 'o'], ['a', 'm'], ['p', 'm'], ['s', 'r'], ['u', 't'], [' '], ['\''], ['+'], [','], ['-'], ['.'], ['/'], [':'], [';'], ['@'], ['['], [']'], ['c'], ['d'], ['g'], ['m'], ['n'], ['s'], ['z'], ['|']] }

/-- internal/data/sr-latn.go: `sr_Latn_ME_Locale`. -/
def sr_Latn_MELang : LangData := { sr_Latn_MEDict with
  knownWords :=
   [['s', 'l', 'e', 'd', 'e', 'c', 'e', ' ', 'n', 'e', 'd', 'e', 'l', 'j', 'e'], ['s', 'l', 'e', 'd', 'e', 'c', 'e', 'g', ' ', 'm', 'e', 's', 'e', 'c', 'a'], ['p', 'r', 'o', 's', 'l', 'e', ' ', 'n', 'e', 'd', 'e', 'l', 'j', 'e'], ['p', 'r', 'o', 's', 'l', 'o', 'g', ' ', 'm', 'e', 's', 'e', 'c', 'a'], ['s', 'l', 'e', 'd', 'e', 'c', 'e', ' ', 'g', 'o', 'd', 'i', 'n', 'e'], ['p', 'r', 'o', 's', 'l', 'e', ' ', 'g', 'o', 'd', 'i', 'n', 'e'], ['o', 'v', 'e', ' ', 'n', 'e', 'd', 'e', 'l', 'j', 'e'], ['o', 'v', 'o', 'g', ' ', 'm', 'e', 's', 'e', 'c', 'a'], ['o', 'v', 'o', 'g', ' ', 'm', 'i', 'n', 'u', 't', 'a'], ['p', 'r', 'i', 'j', 'e', ' ', 'p', 'o', 'd', 'n', 'e'], ['o', 'v', 'e', ' ', 'g', 'o', 'd', 'i', 'n', 'e'], ['p', 'o', 'n', 'e', 'd', 'e', 'l', 'j', 'a', 'k'], ['o', 'v', 'o', 'g', ' ', 's', 'a', 't', 'a'], ['p', 'r', 'e', ' ', 'p', 'o', 'd', 'n', 'e'], ['s', 'e', 'p', 't', 'e', 'm', 'b', 'a', 'r'], ['c', 'e', 't', 'v', 'r', 't', 'a', 'k'], ['d', 'e', 'c', 'e', 'm', 'b', 'a', 'r'], ['n', 'e', 'd', 'j', 'e', 'l', 'j', 'a'], ['n', 'o', 'v', 'e', 'm', 'b', 'a', 'r'], ['p', 'o', ' ', 'p', 'o', 'd', 'n', 'e'], ['f', 'e', 'b', 'r', 'u', 'a', 'r'], ['n', 'e', 'd', 'e', 'l', 'j', 'a'], ['o', 'k', 't', 'o', 'b', 'a', 'r'], ['s', 'r', 'i', 'j', 'e', 'd', 'a'], ['a', 'v', 'g', 'u', 's', 't'], ['g', 'o', 'd', 'i', 'n', 'a'], ['j', 'a', 'n', 'u', 'a', 'r'], ['s', 'e', 'k', 'u', 'n', 'd'], ['s', 'u', 'b', 'o', 't', 'a'], ['u', 't', 'o', 'r', 'a', 'k'], ['a', 'p', 'r', 'i', 'l'], ['d', 'a', 'n', 'a', 's'], ['m', 'e', 's', 'e', 'c'], ['m', 'i', 'n', 'u', 't'], ['p', 'e', 't', 'a', 'k'], ['s', 'r', 'e', 'd', 'a'], ['s', 'u', 't', 'r', 'a'], ['j', 'u', 'c', 'e'], ['m', 'a', 'r', 't'], ['s', 'a', 'd', 'a'], ['s', 'e', 'p', 't'], ['a', 'p', 'r'], ['a', 'v', 'g'], ['c', 'e', 't'], ['d', 'a', 'n'], ['d', 'e', 'c'], ['f', 'e', 'b'], ['g', 'm', 't'], ['g', 'o', 'd'], ['j', 'a', 'n'], ['j', 'u', 'l'], ['j', 'u', 'n'], ['m', 'a', 'j'], ['m', 'a', 'r'], ['m', 'e', 's'], ['m', 'i', 'n'], ['n', 'e', 'd'], ['n', 'o', 'v'], ['o', 'k', 't'], ['p', 'e', 't'], ['p', 'o', 'n'], ['s', 'a', 't'], ['s', 'e', 'k'], ['s', 'e', 'p'], ['s', 'r', 'e'], ['s', 'u', 'b'], ['u', 't', 'c'], ['u', 't', 'o'], ['a', 'm'], ['p', 'm'], ['s', 'r'], ['u', 't'], [' '], ['\''], ['+'], [','], ['-'], ['.'], ['/'], [':'], [';'], ['@'], ['['], [']'], ['c'], ['d'], ['g'], ['m'], ['n'], ['s'], ['z'], ['|']] }

/-- internal/data/sr-latn.go: `sr_Latn_XK_Locale`. -/
def sr_Latn_XKLang : LangData := { sr_Latn_XKDict with
  knownWords :=
   [['s', 'l', 'e', 'd', 'e', 'c', 'e', ' ', 'n', 'e', 'd', 'e', 'l', 'j', 'e'], ['s', 'l', 'e', 'd', 'e', 'c', 'e', 'g', ' ', 'm', 'e', 's', 'e', 'c', 'a'], ['p', 'r', 'o', 's', 'l', 'e', ' ', 'n', 'e', 'd', 'e', 'l', 'j', 'e'], ['p', 'r', 'o', 's', 'l', 'o', 'g', ' ', 'm', 'e', 's', 'e', 'c', 'a'], ['s', 'l', 'e', 'd', 'e', 'c', 'e', ' ', 'g', 'o', 'd', 'i', 'n', 'e'], ['p', 'r', 'o', 's', 'l', 'e', ' ', 'g', 'o', 'd', 'i', 'n', 'e'], ['o', 'v', 'e', ' ', 'n', 'e', 'd', 'e', 'l', 'j', 'e'], ['o', 'v', 'o', 'g', ' ', 'm', 'e', 's', 'e', 'c', 'a'], ['o', 'v', 'o', 'g', ' ', 'm', 'i', 'n', 'u', 't', 'a'], ['o', 'v', 'e', ' ', 'g', 'o', 'd', 'i', 'n', 'e'], ['p', 'o', 'n', 'e', 'd', 'e', 'l', 'j', 'a', 'k'], ['o', 'v', 'o', 'g', ' ', 's', 'a', 't', 'a'], ['p', 'r', 'e', ' ', 'p', 'o', 'd', 'n', 'e'], ['s', 'e', 'p', 't', 'e', 'm', 'b', 'a', 'r'], ['c', 'e', 't', 'v', 'r', 't', 'a', 'k'], ['d', 'e', 'c', 'e', 'm', 'b', 'a', 'r'], ['n', 'o', 'v', 'e', 'm', 'b', 'a', 'r'], ['p', 'o', ' ', 'p', 'o', 'd', 'n', 'e'], ['f', 'e', 'b', 'r', 'u', 'a', 'r'], ['n', 'e', 'd', 'e', 'l', 'j', 'a'], ['o', 'k', 't', 'o', 'b', 'a', 'r'], ['a', 'v', 'g', 'u', 's', 't'], ['g', 'o', 'd', 'i', 'n', 'a'], ['j', 'a', 'n', 'u', 'a', 'r'], ['s', 'e', 'k', 'u', 'n', 'd'], ['s', 'u', 'b', 'o', 't', 'a'], ['u', 't', 'o', 'r', 'a', 'k'], ['a', 'p', 'r', 'i', 'l'], ['d', 'a', 'n', 'a', 's'], ['m', 'e', 's', 'e', 'c'], ['m', 'i', 'n', 'u', 't'], ['p', 'e', 't', 'a', 'k'], ['s', 'r', 'e', 'd', 'a'], ['s', 'u', 't', 'r', 'a'], ['j', 'u', 'c', 'e'], ['m', 'a', 'r', 't'], ['s', 'a', 'd', 'a'], ['s', 'e', 'p', 't'], ['a', 'p', 'r'], ['a', 'v', 'g'], ['c', 'e', 't'], ['d', 'a', 'n'], ['d', 'e', 'c'], ['f', 'e', 'b'], ['g', 'm', 't'], ['g', 'o', 'd'], ['j', 'a', 'n'], ['j', 'u', 'l'], ['j', 'u', 'n'], ['m', 'a', 'j'], ['m', 'a', 'r'], ['m', 'e', 's'], ['m', 'i', 'n'], ['n', 'e', 'd'], ['n', 'o', 'v'], ['o', 'k', 't'], ['p', 'e', 't'], ['p', 'o', 'n'], ['s', 'a', 't'], ['s', 'e', 'k'], ['s', 'e', 'p'], ['s', 'r', 'e'], ['s', 'u', 'b'], ['u', 't', 'c'], ['u', 't', 'o'], ['a', 'm'], ['p', 'm'], ['s', 'r'], ['u', 't'], [' '], ['\''], ['+'], [','], ['-'], ['.'], ['/'], [':'], [';'], ['@'], ['['], [']'], ['c'], ['d'], ['g'], ['m'], ['n'], ['s'], ['z'], ['|']] }

/-- internal/data/sr.go: `sr_Locale`. -/
def srLang : LangData := { srDict with
  relativeRegexes :=
   [(.seqs [.cls false [.rng 'П' 'П', .rng 'п' 'п'], .cls false [.rng 'Р' 'Р', .rng 'р' 'р'], .cls false [.rng 'Е' 'Е', .rng 'е' 'е'], .lit [' '], .grp 1 (.number), .lit [' '], .cls false [.rng 'С' 'С', .rng 'с' 'с', .rng 'ᲃ' 'ᲃ'], .cls false [.rng 'Е' 'Е', .rng 'е' 'е'], .cls false [.rng 'К' 'К', .rng 'к' 'к'], .cls false [.rng 'У' 'У', .rng 'у' 'у'], .cls false [.rng 'Н' 'Н', .rng 'н' 'н'], .cls false [.rng 'Д' 'Д', .rng 'д' 'д', .rng 'ᲁ' 'ᲁ'], .cls false [.rng 'Е' 'Е', .rng 'е' 'е']], [.ref 1, .lit [' ', 's', 'e', 'c', 'o', 'n', 'd', ' ', 'a', 'g', 'o']]),
    (.seqs [.cls false [.rng 'П' 'П', .rng 'п' 'п'], .cls false [.rng 'Р' 'Р', .rng 'р' 'р'], .cls false [.rng 'Е' 'Е', .rng 'е' 'е'], .lit [' '], .grp 1 (.number), .lit [' '], .cls false [.rng 'С' 'С', .rng 'с' 'с', .rng 'ᲃ' 'ᲃ'], .cls false [.rng 'Е' 'Е', .rng 'е' 'е'], .cls false [.rng 'К' 'К', .rng 'к' 'к'], .cls false [.rng 'У' 'У', .rng 'у' 'у'], .cls false [.rng 'Н' 'Н', .rng 'н' 'н'], .cls false [.rng 'Д' 'Д', .rng 'д' 'д', .rng 'ᲁ' 'ᲁ'], .cls false [.rng 'И' 'И', .rng 'и' 'и']], [.ref 1, .lit [' ', 's', 'e', 'c', 'o', 'n', 'd', ' ', 'a', 'g', 'o']]),
    (.seqs [.cls false [.rng 'З' 'З', .rng 'з' 'з'], .cls false [.rng 'А' 'А', .rng 'а' 'а'], .lit [' '], .grp 1 (.number), .lit [' '], .cls false [.rng 'С' 'С', .rng 'с' 'с', .rng 'ᲃ' 'ᲃ'], .cls false [.rng 'Е' 'Е', .rng 'е' 'е'], .cls false [.rng 'К' 'К', .rng 'к' 'к'], .cls false [.rng 'У' 'У', .rng 'у' 'у'], .cls false [.rng 'Н' 'Н', .rng 'н' 'н'], .cls false [.rng 'Д' 'Д', .rng 'д' 'д', .rng 'ᲁ' 'ᲁ'], .cls false [.rng 'И' 'И', .rng 'и' 'и']], [.lit ['i', 'n', ' '], .ref 1, .lit [' ', 's', 'e', 'c', 'o', 'n', 'd']]),
    (.seqs [.cls false [.rng 'З' 'З', .rng 'з' 'з'], .cls false [.rng 'А' 'А', .rng 'а' 'а'], .lit [' '], .grp 1 (.number), .lit [' '], .cls false [.rng 'С' 'С', .rng 'с' 'с', .rng 'ᲃ' 'ᲃ'], .cls false [.rng 'Е' 'Е', .rng 'е' 'е'], .cls false [.rng 'К' 'К', .rng 'к' 'к'], .cls false [.rng 'У' 'У', .rng 'у' 'у'], .cls false [.rng 'Н' 'Н', .rng 'н' 'н'], .cls false [.rng 'Д' 'Д', .rng 'д' 'д', .rng 'ᲁ' 'ᲁ'], .cls false [.rng 'У' 'У', .rng 'у' 'у']], [.lit ['i', 'n', ' '], .ref 1, .lit [' ', 's', 'e', 'c', 'o', 'n', 'd']]),
    (.seqs [.cls false [.rng 'П' 'П', .rng 'п' 'п'], .cls false [.rng 'Р' 'Р', .rng 'р' 'р'], .cls false [.rng 'Е' 'Е', .rng 'е' 'е'], .lit [' '], .grp 1 (.number), .lit [' '], .cls false [.rng 'Г' 'Г', .rng 'г' 'г'], .cls false [.rng 'О' 'О', .rng 'о' 'о', .rng 'ᲂ' 'ᲂ'], .cls false [.rng 'Д' 'Д', .rng 'д' 'д', .rng 'ᲁ' 'ᲁ'], .cls false [.rng 'И' 'И', .rng 'и' 'и'], .cls false [.rng 'Н' 'Н', .rng 'н' 'н'], .cls false [.rng 'А' 'А', .rng 'а' 'а']], [.ref 1, .lit [' ', 'y', 'e', 'a', 'r', ' ', 'a', 'g', 'o']]),
    (.seqs [.cls false [.rng 'П' 'П', .rng 'п' 'п'], .cls false [.rng 'Р' 'Р', .rng 'р' 'р'], .cls false [.rng 'Е' 'Е', .rng 'е' 'е'], .lit [' '], .grp 1 (.number), .lit [' '], .cls false [.rng 'Г' 'Г', .rng 'г' 'г'], .cls false [.rng 'О' 'О', .rng 'о' 'о', .rng 'ᲂ' 'ᲂ'], .cls false [.rng 'Д' 'Д', .rng 'д' 'д', .rng 'ᲁ' 'ᲁ'], .cls false [.rng 'И' 'И', .rng 'и' 'и'], .cls false [.rng 'Н' 'Н', .rng 'н' 'н'], .cls false [.rng 'Е' 'Е', .rng 'е' 'е']], [.ref 1, .lit [' ', 'y', 'e', 'a', 'r', ' ', 'a', 'g', 'o']]),
    (.seqs [.cls false [.rng 'П' 'П', .rng 'п' 'п'], .cls false [.rng 'Р' 'Р', .rng 'р' 'р'], .cls false [.rng 'Е' 'Е', .rng 'е' 'е'], .lit [' '], .grp 1 (.number), .lit [' '], .cls false [.rng 'М' 'М', .rng 'м' 'м'], .cls false [.rng 'Е' 'Е', .rng 'е' 'е'], .cls false [.rng 'С' 'С', .rng 'с' 'с', .rng 'ᲃ' 'ᲃ'], .cls false [.rng 'Е' 'Е', .rng 'е' 'е'], .cls false [.rng 'Ц' 'Ц', .rng 'ц' 'ц'], .cls false [.rng 'А' 'А', .rng 'а' 'а']], [.ref 1, .lit [' ', 'm', 'o', 'n', 't', 'h', ' ', 'a', 'g', 'o']]),
    (.seqs [.cls false [.rng 'П' 'П', .rng 'п' 'п'], .cls false [.rng 'Р' 'Р', .rng 'р' 'р'], .cls false [.rng 'Е' 'Е', .rng 'е' 'е'], .lit [' '], .grp 1 (.number), .lit [' '], .cls false [.rng 'М' 'М', .rng 'м' 'м'], .cls false [.rng 'Е' 'Е', .rng 'е' 'е'], .cls false [.rng 'С' 'С', .rng 'с' 'с', .rng 'ᲃ' 'ᲃ'], .cls false [.rng 'Е' 'Е', .rng 'е' 'е'], .cls false [.rng 'Ц' 'Ц', .rng 'ц' 'ц'], .cls false [.rng 'И' 'И', .rng 'и' 'и']], [.ref 1, .lit [' ', 'm', 'o', 'n', 't', 'h', ' ', 'a', 'g', 'o']]),
    (.seqs [.cls false [.rng 'П' 'П', .rng 'п' 'п'], .cls false [.rng 'Р' 'Р', .rng 'р' 'р'], .cls false [.rng 'Е' 'Е', .rng 'е' 'е'], .lit [' '], .grp 1 (.number), .lit [' '], .cls false [.rng 'М' 'М', .rng 'м' 'м'], .cls false [.rng 'И' 'И', .rng 'и' 'и'], .cls false [.rng 'Н' 'Н', .rng 'н' 'н'], .cls false [.rng 'У' 'У', .rng 'у' 'у'], .cls false [.rng 'Т' 'Т', .rng 'т' 'т', .rng 'ᲄ' 'ᲄ', .rng 'ᲅ' 'ᲅ'], .cls false [.rng 'А' 'А', .rng 'а' 'а']], [.ref 1, .lit [' ', 'm', 'i', 'n', 'u', 't', 'e', ' ', 'a', 'g', 'o']]),
    (.seqs [.cls false [.rng 'П' 'П', .rng 'п' 'п'], .cls false [.rng 'Р' 'Р', .rng 'р' 'р'], .cls false [.rng 'Е' 'Е', .rng 'е' 'е'], .lit [' '], .grp 1 (.number), .lit [' '], .cls false [.rng 'Н' 'Н', .rng 'н' 'н'], .cls false [.rng 'Е' 'Е', .rng 'е' 'е'], .cls false [.rng 'Д' 'Д', .rng 'д' 'д', .rng 'ᲁ' 'ᲁ'], .cls false [.rng 'Е' 'Е', .rng 'е' 'е'], .cls false [.rng 'Љ' 'Љ', .rng 'љ' 'љ'], .cls false [.rng 'А' 'А', .rng 'а' 'а']], [.ref 1, .lit [' ', 'w', 'e', 'e', 'k', ' ', 'a', 'g', 'o']]),
    (.seqs [.cls false [.rng 'П' 'П', .rng 'п' 'п'], .cls false [.rng 'Р' 'Р', .rng 'р' 'р'], .cls false [.rng 'Е' 'Е', .rng 'е' 'е'], .lit [' '], .grp 1 (.number), .lit [' '], .cls false [.rng 'Н' 'Н', .rng 'н' 'н'], .cls false [.rng 'Е' 'Е', .rng 'е' 'е'], .cls false [.rng 'Д' 'Д', .rng 'д' 'д', .rng 'ᲁ' 'ᲁ'], .cls false [.rng 'Е' 'Е', .rng 'е' 'е'], .cls false [.rng 'Љ' 'Љ', .rng 'љ' 'љ'], .cls false [.rng 'Е' 'Е', .rng 'е' 'е']], [.ref 1, .lit [' ', 'w', 'e', 'e', 'k', ' ', 'a', 'g', 'o']]),
    (.seqs [.cls false [.rng 'З' 'З', .rng 'з' 'з'], .cls false [.rng 'А' 'А', .rng 'а' 'а'], .lit [' '], .grp 1 (.number), .lit [' '], .cls false [.rng 'Г' 'Г', .rng 'г' 'г'], .cls false [.rng 'О' 'О', .rng 'о' 'о', .rng 'ᲂ' 'ᲂ'], .cls false [.rng 'Д' 'Д', .rng 'д' 'д', .rng 'ᲁ' 'ᲁ'], .cls false [.rng 'И' 'И', .rng 'и' 'и'], .cls false [.rng 'Н' 'Н', .rng 'н' 'н'], .cls false [.rng 'А' 'А', .rng 'а' 'а']], [.lit ['i', 'n', ' '], .ref 1, .lit [' ', 'y', 'e', 'a', 'r']]),
    (.seqs [.cls false [.rng 'З' 'З', .rng 'з' 'з'], .cls false [.rng 'А' 'А', .rng 'а' 'а'], .lit [' '], .grp 1 (.number), .lit [' '], .cls false [.rng 'Г' 'Г', .rng 'г' 'г'], .cls false [.rng 'О' 'О', .rng 'о' 'о', .rng 'ᲂ' 'ᲂ'], .cls false [.rng 'Д' 'Д', .rng 'д' 'д', .rng 'ᲁ' 'ᲁ'], .cls false [.rng 'И' 'И', .rng 'и' 'и'], .cls false [.rng 'Н' 'Н', .rng 'н' 'н'], .cls false [.rng 'У' 'У', .rng 'у' 'у']], [.lit ['i', 'n', ' '], .ref 1, .lit [' ', 'y', 'e', 'a', 'r']]),
    (.seqs [.cls false [.rng 'З' 'З', .rng 'з' 'з'], .cls false [.rng 'А' 'А', .rng 'а' 'а'], .lit [' '], .grp 1 (.number), .lit [' '], .cls false [.rng 'М' 'М', .rng 'м' 'м'], .cls false [.rng 'Е' 'Е', .rng 'е' 'е'], .cls false [.rng 'С' 'С', .rng 'с' 'с', .rng 'ᲃ' 'ᲃ'], .cls false [.rng 'Е' 'Е', .rng 'е' 'е'], .cls false [.rng 'Ц' 'Ц', .rng 'ц' 'ц'], .cls false [.rng 'И' 'И', .rng 'и' 'и']], [.lit ['i', 'n', ' '], .ref 1, .lit [' ', 'm', 'o', 'n', 't', 'h']]),
    (.seqs [.cls false [.rng 'З' 'З', .rng 'з' 'з'], .cls false [.rng 'А' 'А', .rng 'а' 'а'], .lit [' '], .grp 1 (.number), .lit [' '], .cls false [.rng 'М' 'М', .rng 'м' 'м'], .cls false [.rng 'И' 'И', .rng 'и' 'и'], .cls false [.rng 'Н' 'Н', .rng 'н' 'н'], .cls false [.rng 'У' 'У', .rng 'у' 'у'], .cls false [.rng 'Т' 'Т', .rng 'т' 'т', .rng 'ᲄ' 'ᲄ', .rng 'ᲅ' 'ᲅ'], .cls false [.rng 'А' 'А', .rng 'а' 'а']], [.lit ['i', 'n', ' '], .ref 1, .lit [' ', 'm', 'i', 'n', 'u', 't', 'e']]),
    (.seqs [.cls false [.rng 'З' 'З', .rng 'з' 'з'], .cls false [.rng 'А' 'А', .rng 'а' 'а'], .lit [' '], .grp 1 (.number), .lit [' '], .cls false [.rng 'Н' 'Н', .rng 'н' 'н'], .cls false [.rng 'Е' 'Е', .rng 'е' 'е'], .cls false [.rng 'Д' 'Д', .rng 'д' 'д', .rng 'ᲁ' 'ᲁ'], .cls false [.rng 'Е' 'Е', .rng 'е' 'е'], .cls false [.rng 'Љ' 'Љ', .rng 'љ' 'љ'], .cls false [.rng 'А' 'А', .rng 'а' 'а']], [.lit ['i', 'n', ' '], .ref 1, .lit [' ', 'w', 'e', 'e', 'k']]),
    (.seqs [.cls false [.rng 'З' 'З', .rng 'з' 'з'], .cls false [.rng 'А' 'А', .rng 'а' 'а'], .lit [' '], .grp 1 (.number), .lit [' '], .cls false [.rng 'Н' 'Н', .rng 'н' 'н'], .cls false [.rng 'Е' 'Е', .rng 'е' 'е'], .cls false [.rng 'Д' 'Д', .rng 'д' 'д', .rng 'ᲁ' 'ᲁ'], .cls false [.rng 'Е' 'Е', .rng 'е' 'е'], .cls false [.rng 'Љ' 'Љ', .rng 'љ' 'љ'], .cls false [.rng 'У' 'У', .rng 'у' 'у']], [.lit ['i', 'n', ' '], .ref 1, .lit [' ', 'w', 'e', 'e', 'k']]),
    (.seqs [.cls false [.rng 'З' 'З', .rng 'з' 'з'], .cls false [.rng 'А' 'А', .rng 'а' 'а'], .lit [' '], .grp 1 (.number), .lit [' '], .cls false [.rng 'М' 'М', .rng 'м' 'м'], .cls false [.rng 'Е' 'Е', .rng 'е' 'е'], .cls false [.rng 'С' 'С', .rng 'с' 'с', .rng 'ᲃ' 'ᲃ'], .cls false [.rng 'Е' 'Е', .rng 'е' 'е'], .cls false [.rng 'Ц' 'Ц', .rng 'ц' 'ц']], [.lit ['i', 'n', ' '], .ref 1, .lit [' ', 'm', 'o', 'n', 't', 'h']]),
    (.seqs [.cls false [.rng 'З' 'З', .rng 'з' 'з'], .cls false [.rng 'А' 'А', .rng 'а' 'а'], .lit [' '], .grp 1 (.number), .lit [' '], .cls false [.rng 'М' 'М', .rng 'м' 'м'], .cls false [.rng 'И' 'И', .rng 'и' 'и'], .cls false [.rng 'Н' 'Н', .rng 'н' 'н'], .cls false [.rng 'У' 'У', .rng 'у' 'у'], .cls false [.rng 'Т' 'Т', .rng 'т' 'т', .rng 'ᲄ' 'ᲄ', .rng 'ᲅ' 'ᲅ']], [.lit ['i', 'n', ' '], .ref 1, .lit [' ', 'm', 'i', 'n', 'u', 't', 'e']]),
    (.seqs [.cls false [.rng 'П' 'П', .rng 'п' 'п'], .cls false [.rng 'Р' 'Р', .rng 'р' 'р'], .cls false [.rng 'Е' 'Е', .rng 'е' 'е'], .lit [' '], .grp 1 (.number), .lit [' '], .cls false [.rng 'Д' 'Д', .rng 'д' 'д', .rng 'ᲁ' 'ᲁ'], .cls false [.rng 'А' 'А', .rng 'а' 'а'], .cls false [.rng 'Н' 'Н', .rng 'н' 'н'], .cls false [.rng 'А' 'А', .rng 'а' 'а']], [.ref 1, .lit [' ', 'd', 'a', 'y', ' ', 'a', 'g', 'o']]),
    (.seqs [.cls false [.rng 'П' 'П', .rng 'п' 'п'], .cls false [.rng 'Р' 'Р', .rng 'р' 'р'], .cls false [.rng 'Е' 'Е', .rng 'е' 'е'], .lit [' '], .grp 1 (.number), .lit [' '], .cls false [.rng 'С' 'С', .rng 'с' 'с', .rng 'ᲃ' 'ᲃ'], .cls false [.rng 'А' 'А', .rng 'а' 'а'], .cls false [.rng 'Т' 'Т', .rng 'т' 'т', .rng 'ᲄ' 'ᲄ', .rng 'ᲅ' 'ᲅ'], .cls false [.rng 'А' 'А', .rng 'а' 'а']], [.ref 1, .lit [' ', 'h', 'o', 'u', 'r', ' ', 'a', 'g', 'o']]),
    (.seqs [.cls false [.rng 'П' 'П', .rng 'п' 'п'], .cls false [.rng 'Р' 'Р', .rng 'р' 'р'], .cls false [.rng 'Е' 'Е', .rng 'е' 'е'], .lit [' '], .grp 1 (.number), .lit [' '], .cls false [.rng 'С' 'С', .rng 'с' 'с', .rng 'ᲃ' 'ᲃ'], .cls false [.rng 'А' 'А', .rng 'а' 'а'], .cls false [.rng 'Т' 'Т', .rng 'т' 'т', .rng 'ᲄ' 'ᲄ', .rng 'ᲅ' 'ᲅ'], .cls false [.rng 'И' 'И', .rng 'и' 'и']], [.ref 1, .lit [' ', 'h', 'o', 'u', 'r', ' ', 'a', 'g', 'o']]),
    (.seqs [.cls false [.rng 'З' 'З', .rng 'з' 'з'], .cls false [.rng 'А' 'А', .rng 'а' 'а'], .lit [' '], .grp 1 (.number), .lit [' '], .cls false [.rng 'Д' 'Д', .rng 'д' 'д', .rng 'ᲁ' 'ᲁ'], .cls false [.rng 'А' 'А', .rng 'а' 'а'], .cls false [.rng 'Н' 'Н', .rng 'н' 'н'], .cls false [.rng 'А' 'А', .rng 'а' 'а']], [.lit ['i', 'n', ' '], .ref 1, .lit [' ', 'd', 'a', 'y']]),
    (.seqs [.cls false [.rng 'З' 'З', .rng 'з' 'з'], .cls false [.rng 'А' 'А', .rng 'а' 'а'], .lit [' '], .grp 1 (.number), .lit [' '], .cls false [.rng 'С' 'С', .rng 'с' 'с', .rng 'ᲃ' 'ᲃ'], .cls false [.rng 'А' 'А', .rng 'а' 'а'], .cls false [.rng 'Т' 'Т', .rng 'т' 'т', .rng 'ᲄ' 'ᲄ', .rng 'ᲅ' 'ᲅ'], .cls false [.rng 'И' 'И', .rng 'и' 'и']], [.lit ['i', 'n', ' '], .ref 1, .lit [' ', 'h', 'o', 'u', 'r']]),
    (.seqs [.cls false [.rng 'П' 'П', .rng 'п' 'п'], .cls false [.rng 'Р' 'Р', .rng 'р' 'р'], .cls false [.rng 'Е' 'Е', .rng 'е' 'е'], .lit [' '], .grp 1 (.number), .lit [' '], .cls false [.rng 'Г' 'Г', .rng 'г' 'г'], .cls false [.rng 'О' 'О', .rng 'о' 'о', .rng 'ᲂ' 'ᲂ'], .cls false [.rng 'Д' 'Д', .rng 'д' 'д', .rng 'ᲁ' 'ᲁ']], [.ref 1, .lit [' ', 'y', 'e', 'a', 'r', ' ', 'a', 'g', 'o']]),
    (.seqs [.cls false [.rng 'П' 'П', .rng 'п' 'п'], .cls false [.rng 'Р' 'Р', .rng 'р' 'р'], .cls false [.rng 'Е' 'Е', .rng 'е' 'е'], .lit [' '], .grp 1 (.number), .lit [' '], .cls false [.rng 'М' 'М', .rng 'м' 'м'], .cls false [.rng 'Е' 'Е', .rng 'е' 'е'], .cls false [.rng 'С' 'С', .rng 'с' 'с', .rng 'ᲃ' 'ᲃ']], [.ref 1, .lit [' ', 'm', 'o', 'n', 't', 'h', ' ', 'a', 'g', 'o']]),
    (.seqs [.cls false [.rng 'П' 'П', .rng 'п' 'п'], .cls false [.rng 'Р' 'Р', .rng 'р' 'р'], .cls false [.rng 'Е' 'Е', .rng 'е' 'е'], .lit [' '], .grp 1 (.number), .lit [' '], .cls false [.rng 'М' 'М', .rng 'м' 'м'], .cls false [.rng 'И' 'И', .rng 'и' 'и'], .cls false [.rng 'Н' 'Н', .rng 'н' 'н']], [.ref 1, .lit [' ', 'm', 'i', 'n', 'u', 't', 'e', ' ', 'a', 'g', 'o']]),
    (.seqs [.cls false [.rng 'П' 'П', .rng 'п' 'п'], .cls false [.rng 'Р' 'Р', .rng 'р' 'р'], .cls false [.rng 'Е' 'Е', .rng 'е' 'е'], .lit [' '], .grp 1 (.number), .lit [' '], .cls false [.rng 'Н' 'Н', .rng 'н' 'н'], .cls false [.rng 'Е' 'Е', .rng 'е' 'е'], .cls false [.rng 'Д' 'Д', .rng 'д' 'д', .rng 'ᲁ' 'ᲁ']], [.ref 1, .lit [' ', 'w', 'e', 'e', 'k', ' ', 'a', 'g', 'o']]),
    (.seqs [.cls false [.rng 'П' 'П', .rng 'п' 'п'], .cls false [.rng 'Р' 'Р', .rng 'р' 'р'], .cls false [.rng 'Е' 'Е', .rng 'е' 'е'], .lit [' '], .grp 1 (.number), .lit [' '], .cls false [.rng 'С' 'С', .rng 'с' 'с', .rng 'ᲃ' 'ᲃ'], .cls false [.rng 'Е' 'Е', .rng 'е' 'е'], .cls false [.rng 'К' 'К', .rng 'к' 'к']], [.ref 1, .lit [' ', 's', 'e', 'c', 'o', 'n', 'd', ' ', 'a', 'g', 'o']]),
    (.seqs [.cls false [.rng 'З' 'З', .rng 'з' 'з'], .cls false [.rng 'А' 'А', .rng 'а' 'а'], .lit [' '], .grp 1 (.number), .lit [' '], .cls false [.rng 'Г' 'Г', .rng 'г' 'г'], .cls false [.rng 'О' 'О', .rng 'о' 'о', .rng 'ᲂ' 'ᲂ'], .cls false [.rng 'Д' 'Д', .rng 'д' 'д', .rng 'ᲁ' 'ᲁ']], [.lit ['i', 'n', ' '], .ref 1, .lit [' ', 'y', 'e', 'a', 'r']]),
    (.seqs [.cls false [.rng 'З' 'З', .rng 'з' 'з'], .cls false [.rng 'А' 'А', .rng 'а' 'а'], .lit [' '], .grp 1 (.number), .lit [' '], .cls false [.rng 'Д' 'Д', .rng 'д' 'д', .rng 'ᲁ' 'ᲁ'], .cls false [.rng 'А' 'А', .rng 'а' 'а'], .cls false [.rng 'Н' 'Н', .rng 'н' 'н']], [.lit ['i', 'n', ' '], .ref 1, .lit [' ', 'd', 'a', 'y']]),
    (.seqs [.cls false [.rng 'З' 'З', .rng 'з' 'з'], .cls false [.rng 'А' 'А', .rng 'а' 'а'], .lit [' '], .grp 1 (.number), .lit [' '], .cls false [.rng 'М' 'М', .rng 'м' 'м'], .cls false [.rng 'Е' 'Е', .rng 'е' 'е'], .cls false [.rng 'С' 'С', .rng 'с' 'с', .rng 'ᲃ' 'ᲃ']], [.lit ['i', 'n', ' '], .ref 1, .lit [' ', 'm', 'o', 'n', 't', 'h']]),
    (.seqs [.cls false [.rng 'З' 'З', .rng 'з' 'з'], .cls false [.rng 'А' 'А', .rng 'а' 'а'], .lit [' '], .grp 1 (.number), .lit [' '], .cls false [.rng 'М' 'М', .rng 'м' 'м'], .cls false [.rng 'И' 'И', .rng 'и' 'и'], .cls false [.rng 'Н' 'Н', .rng 'н' 'н']], [.lit ['i', 'n', ' '], .ref 1, .lit [' ', 'm', 'i', 'n', 'u', 't', 'e']]),
    (.seqs [.cls false [.rng 'З' 'З', .rng 'з' 'з'], .cls false [.rng 'А' 'А', .rng 'а' 'а'], .lit [' '], .grp 1 (.number), .lit [' '], .cls false [.rng 'Н' 'Н', .rng 'н' 'н'], .cls false [.rng 'Е' 'Е', .rng 'е' 'е'], .cls false [.rng 'Д' 'Д', .rng 'д' 'д', .rng 'ᲁ' 'ᲁ']], [.lit ['i', 'n', ' '], .ref 1, .lit [' ', 'w', 'e', 'e', 'k']]),
    (.seqs [.cls false [.rng 'З' 'З', .rng 'з' 'з'], .cls false [.rng 'А' 'А', .rng 'а' 'а'], .lit [' '], .grp 1 (.number), .lit [' '], .cls false [.rng 'С' 'С', .rng 'с' 'с', .rng 'ᲃ' 'ᲃ'], .cls false [.rng 'А' 'А', .rng 'а' 'а'], .cls false [.rng 'Т' 'Т', .rng 'т' 'т', .rng 'ᲄ' 'ᲄ', .rng 'ᲅ' 'ᲅ']], [.lit ['i', 'n', ' '], .ref 1, .lit [' ', 'h', 'o', 'u', 'r']]),
    (.seqs [.cls false [.rng 'З' 'З', .rng 'з' 'з'], .cls false [.rng 'А' 'А', .rng 'а' 'а'], .lit [' '], .grp 1 (.number), .lit [' '], .cls false [.rng 'С' 'С', .rng 'с' 'с', .rng 'ᲃ' 'ᲃ'], .cls false [.rng 'Е' 'Е', .rng 'е' 'е'], .cls false [.rng 'К' 'К', .rng 'к' 'к']], [.lit ['i', 'n', ' '], .ref 1, .lit [' ', 's', 'e', 'c', 'o', 'n', 'd']]),
    (.seqs [.cls false [.rng 'П' 'П', .rng 'п' 'п'], .cls false [.rng 'Р' 'Р', .rng 'р' 'р'], .cls false [.rng 'Е' 'Е', .rng 'е' 'е'], .lit [' '], .grp 1 (.number), .lit [' '], .cls false [.rng 'Г' 'Г', .rng 'г' 'г']], [.ref 1, .lit [' ', 'y', 'e', 'a', 'r', ' ', 'a', 'g', 'o']]),
    (.seqs [.cls false [.rng 'П' 'П', .rng 'п' 'п'], .cls false [.rng 'Р' 'Р', .rng 'р' 'р'], .cls false [.rng 'Е' 'Е', .rng 'е' 'е'], .lit [' '], .grp 1 (.number), .lit [' '], .cls false [.rng 'Д' 'Д', .rng 'д' 'д', .rng 'ᲁ' 'ᲁ']], [.ref 1, .lit [' ', 'd', 'a', 'y', ' ', 'a', 'g', 'o']]),
    (.seqs [.cls false [.rng 'П' 'П', .rng 'п' 'п'], .cls false [.rng 'Р' 'Р', .rng 'р' 'р'], .cls false [.rng 'Е' 'Е', .rng 'е' 'е'], .lit [' '], .grp 1 (.number), .lit [' '], .cls false [.rng 'М' 'М', .rng 'м' 'м']], [.ref 1, .lit [' ', 'm', 'o', 'n', 't', 'h', ' ', 'a', 'g', 'o']]),
    (.seqs [.cls false [.rng 'П' 'П', .rng 'п' 'п'], .cls false [.rng 'Р' 'Р', .rng 'р' 'р'], .cls false [.rng 'Е' 'Е', .rng 'е' 'е'], .lit [' '], .grp 1 (.number), .lit [' '], .cls false [.rng 'Н' 'Н', .rng 'н' 'н']], [.ref 1, .lit [' ', 'w', 'e', 'e', 'k', ' ', 'a', 'g', 'o']]),
    (.seqs [.cls false [.rng 'П' 'П', .rng 'п' 'п'], .cls false [.rng 'Р' 'Р', .rng 'р' 'р'], .cls false [.rng 'Е' 'Е', .rng 'е' 'е'], .lit [' '], .grp 1 (.number), .lit [' '], .cls false [.rng 'С' 'С', .rng 'с' 'с', .rng 'ᲃ' 'ᲃ']], [.ref 1, .lit [' ', 's', 'e', 'c', 'o', 'n', 'd', ' ', 'a', 'g', 'o']]),
    (.seqs [.cls false [.rng 'П' 'П', .rng 'п' 'п'], .cls false [.rng 'Р' 'Р', .rng 'р' 'р'], .cls false [.rng 'Е' 'Е', .rng 'е' 'е'], .lit [' '], .grp 1 (.number), .lit [' '], .cls false [.rng 'Ч' 'Ч', .rng 'ч' 'ч']], [.ref 1, .lit [' ', 'h', 'o', 'u', 'r', ' ', 'a', 'g', 'o']]),
    (.seqs [.cls false [.rng 'З' 'З', .rng 'з' 'з'], .cls false [.rng 'А' 'А', .rng 'а' 'а'], .lit [' '], .grp 1 (.number), .lit [' '], .cls false [.rng 'Г' 'Г', .rng 'г' 'г']], [.lit ['i', 'n', ' '], .ref 1, .lit [' ', 'y', 'e', 'a', 'r']]),
    (.seqs [.cls false [.rng 'З' 'З', .rng 'з' 'з'], .cls false [.rng 'А' 'А', .rng 'а' 'а'], .lit [' '], .grp 1 (.number), .lit [' '], .cls false [.rng 'Д' 'Д', .rng 'д' 'д', .rng 'ᲁ' 'ᲁ']], [.lit ['i', 'n', ' '], .ref 1, .lit [' ', 'd', 'a', 'y']]),
    (.seqs [.cls false [.rng 'З' 'З', .rng 'з' 'з'], .cls false [.rng 'А' 'А', .rng 'а' 'а'], .lit [' '], .grp 1 (.number), .lit [' '], .cls false [.rng 'М' 'М', .rng 'м' 'м']], [.lit ['i', 'n', ' '], .ref 1, .lit [' ', 'm', 'o', 'n', 't', 'h']]),
    (.seqs [.cls false [.rng 'З' 'З', .rng 'з' 'з'], .cls false [.rng 'А' 'А', .rng 'а' 'а'], .lit [' '], .grp 1 (.number), .lit [' '], .cls false [.rng 'Н' 'Н', .rng 'н' 'н']], [.lit ['i', 'n', ' '], .ref 1, .lit [' ', 'w', 'e', 'e', 'k']]),
    (.seqs [.cls false [.rng 'З' 'З', .rng 'з' 'з'], .cls false [.rng 'А' 'А', .rng 'а' 'а'], .lit [' '], .grp 1 (.number), .lit [' '], .cls false [.rng 'С' 'С', .rng 'с' 'с', .rng 'ᲃ' 'ᲃ']], [.lit ['i', 'n', ' '], .ref 1, .lit [' ', 's', 'e', 'c', 'o', 'n', 'd']]),
    (.seqs [.cls false [.rng 'З' 'З', .rng 'з' 'з'], .cls false [.rng 'А' 'А', .rng 'а' 'а'], .lit [' '], .grp 1 (.number), .lit [' '], .cls false [.rng 'Ч' 'Ч', .rng 'ч' 'ч']], [.lit ['i', 'n', ' '], .ref 1, .lit [' ', 'h', 'o', 'u', 'r']])],
  rxCombined := some (.seqs [.grp 1 (.alts [.bos, .cls true [.letter, .mark, .digit], .lit ['_']]), .grp 2 (.alts [.seqs [.cls false [.rng 'П' 'П', .rng 'п' 'п'], .cls false [.rng 'Р' 'Р', .rng 'р' 'р'], .cls false [.rng 'Е' 'Е', .rng 'е' 'е'], .lit [' '], .number, .lit [' '], .cls false [.rng 'С' 'С', .rng 'с' 'с', .rng 'ᲃ' 'ᲃ'], .cls false [.rng 'Е' 'Е', .rng 'е' 'е'], .cls false [.rng 'К' 'К', .rng 'к' 'к'], .cls false [.rng 'У' 'У', .rng 'у' 'у'], .cls false [.rng 'Н' 'Н', .rng 'н' 'н'], .cls false [.rng 'Д' 'Д', .rng 'д' 'д', .rng 'ᲁ' 'ᲁ'], .cls false [.rng 'Е' 'Е', .rng 'е' 'е']], .seqs [.cls false [.rng 'П' 'П', .rng 'п' 'п'], .cls false [.rng 'Р' 'Р', .rng 'р' 'р'], .cls false [.rng 'Е' 'Е', .rng 'е' 'е'], .lit [' '], .number, .lit [' '], .cls false [.rng 'С' 'С', .rng 'с' 'с', .rng 'ᲃ' 'ᲃ'], .cls false [.rng 'Е' 'Е', .rng 'е' 'е'], .cls false [.rng 'К' 'К', .rng 'к' 'к'], .cls false [.rng 'У' 'У', .rng 'у' 'у'], .cls false [.rng 'Н' 'Н', .rng 'н' 'н'], .cls false [.rng 'Д' 'Д', .rng 'д' 'д', .rng 'ᲁ' 'ᲁ'], .cls false [.rng 'И' 'И', .rng 'и' 'и']], .seqs [.cls false [.rng 'З' 'З', .rng 'з' 'з'], .cls false [.rng 'А' 'А', .rng 'а' 'а'], .lit [' '], .number, .lit [' '], .cls false [.rng 'С' 'С', .rng 'с' 'с', .rng 'ᲃ' 'ᲃ'], .cls false [.rng 'Е' 'Е', .rng 'е' 'е'], .cls false [.rng 'К' 'К', .rng 'к' 'к'], .cls false [.rng 'У' 'У', .rng 'у' 'у'], .cls false [.rng 'Н' 'Н', .rng 'н' 'н'], .cls false [.rng 'Д' 'Д', .rng 'д' 'д', .rng 'ᲁ' 'ᲁ'], .cls false [.rng 'И' 'И', .rng 'и' 'и']], .seqs [.cls false [.rng 'З' 'З', .rng 'з' 'з'], .cls false [.rng 'А' 'А', .rng 'а' 'а'], .lit [' '], .number, .lit [' '], .cls false [.rng 'С' 'С', .rng 'с' 'с', .rng 'ᲃ' 'ᲃ'], .cls false [.rng 'Е' 'Е', .rng 'е' 'е'], .cls false [.rng 'К' 'К', .rng 'к' 'к'], .cls false [.rng 'У' 'У', .rng 'у' 'у'], .cls false [.rng 'Н' 'Н', .rng 'н' 'н'], .cls false [.rng 'Д' 'Д', .rng 'д' 'д', .rng 'ᲁ' 'ᲁ'], .cls false [.rng 'У' 'У', .rng 'у' 'у']], .seqs [.cls false [.rng 'П' 'П', .rng 'п' 'п'], .cls false [.rng 'Р' 'Р', .rng 'р' 'р'], .cls false [.rng 'Е' 'Е', .rng 'е' 'е'], .lit [' '], .number, .lit [' '], .cls false [.rng 'Г' 'Г', .rng 'г' 'г'], .cls false [.rng 'О' 'О', .rng 'о' 'о', .rng 'ᲂ' 'ᲂ'], .cls false [.rng 'Д' 'Д', .rng 'д' 'д', .rng 'ᲁ' 'ᲁ'], .cls false [.rng 'И' 'И', .rng 'и' 'и'], .cls false [.rng 'Н' 'Н', .rng 'н' 'н'], .cls false [.rng 'А' 'А', .rng 'а' 'а']], .seqs [.cls false [.rng 'П' 'П', .rng 'п' 'п'], .cls false [.rng 'Р' 'Р', .rng 'р' 'р'], .cls false [.rng 'Е' 'Е', .rng 'е' 'е'], .lit [' '], .number, .lit [' '], .cls false [.rng 'Г' 'Г', .rng 'г' 'г'], .cls false [.rng 'О' 'О', .rng 'о' 'о', .rng 'ᲂ' 'ᲂ'], .cls false [.rng 'Д' 'Д', .rng 'д' 'д', .rng 'ᲁ' 'ᲁ'], .cls false [.rng 'И' 'И', .rng 'и' 'и'], .cls false [.rng 'Н' 'Н', .rng 'н' 'н'], .cls false [.rng 'Е' 'Е', .rng 'е' 'е']], .seqs [.cls false [.rng 'П' 'П', .rng 'п' 'п'], .cls false [.rng 'Р' 'Р', .rng 'р' 'р'], .cls false [.rng 'Е' 'Е', .rng 'е' 'е'], .lit [' '], .number, .lit [' '], .cls false [.rng 'М' 'М', .rng 'м' 'м'], .cls false [.rng 'Е' 'Е', .rng 'е' 'е'], .cls false [.rng 'С' 'С', .rng 'с' 'с', .rng 'ᲃ' 'ᲃ'], .cls false [.rng 'Е' 'Е', .rng 'е' 'е'], .cls false [.rng 'Ц' 'Ц', .rng 'ц' 'ц'], .cls false [.rng 'А' 'А', .rng 'а' 'а']], .seqs [.cls false [.rng 'П' 'П', .rng 'п' 'п'], .cls false [.rng 'Р' 'Р', .rng 'р' 'р'], .cls false [.rng 'Е' 'Е', .rng 'е' 'е'], .lit [' '], .number, .lit [' '], .cls false [.rng 'М' 'М', .rng 'м' 'м'], .cls false [.rng 'Е' 'Е', .rng 'е' 'е'], .cls false [.rng 'С' 'С', .rng 'с' 'с', .rng 'ᲃ' 'ᲃ'], .cls false [.rng 'Е' 'Е', .rng 'е' 'е'], .cls false [.rng 'Ц' 'Ц', .rng 'ц' 'ц'], .cls false [.rng 'И' 'И', .rng 'и' 'и']], .seqs [.cls false [.rng 'П' 'П', .rng 'п' 'п'], .cls false [.rng 'Р' 'Р', .rng 'р' 'р'], .cls false [.rng 'Е' 'Е', .rng 'е' 'е'], .lit [' '], .number, .lit [' '], .cls false [.rng 'М' 'М', .rng 'м' 'м'], .cls false [.rng 'И' 'И', .rng 'и' 'и'], .cls false [.rng 'Н' 'Н', .rng 'н' 'н'], .cls false [.rng 'У' 'У', .rng 'у' 'у'], .cls false [.rng 'Т' 'Т', .rng 'т' 'т', .rng 'ᲄ' 'ᲄ', .rng 'ᲅ' 'ᲅ'], .cls false [.rng 'А' 'А', .rng 'а' 'а']], .seqs [.cls false [.rng 'П' 'П', .rng 'п' 'п'], .cls false [.rng 'Р' 'Р', .rng 'р' 'р'], .cls false [.rng 'Е' 'Е', .rng 'е' 'е'], .lit [' '], .number, .lit [' '], .cls false [.rng 'Н' 'Н', .rng 'н' 'н'], .cls false [.rng 'Е' 'Е', .rng 'е' 'е'], .cls false [.rng 'Д' 'Д', .rng 'д' 'д', .rng 'ᲁ' 'ᲁ'], .cls false [.rng 'Е' 'Е', .rng 'е' 'е'], .cls false [.rng 'Љ' 'Љ', .rng 'љ' 'љ'], .cls false [.rng 'А' 'А', .rng 'а' 'а']], .seqs [.cls false [.rng 'П' 'П', .rng 'п' 'п'], .cls false [.rng 'Р' 'Р', .rng 'р' 'р'], .cls false [.rng 'Е' 'Е', .rng 'е' 'е'], .lit [' '], .number, .lit [' '], .cls false [.rng 'Н' 'Н', .rng 'н' 'н'], .cls false [.rng 'Е' 'Е', .rng 'е' 'е'], .cls false [.rng 'Д' 'Д', .rng 'д' 'д', .rng 'ᲁ' 'ᲁ'], .cls false [.rng 'Е' 'Е', .rng 'е' 'е'], .cls false [.rng 'Љ' 'Љ', .rng 'љ' 'љ'], .cls false [.rng 'Е' 'Е', .rng 'е' 'е']], .seqs [.cls false [.rng 'З' 'З', .rng 'з' 'з'], .cls false [.rng 'А' 'А', .rng 'а' 'а'], .lit [' '], .number, .lit [' '], .cls false [.rng 'Г' 'Г', .rng 'г' 'г'], .cls false [.rng 'О' 'О', .rng 'о' 'о', .rng 'ᲂ' 'ᲂ'], .cls false [.rng 'Д' 'Д', .rng 'д' 'д', .rng 'ᲁ' 'ᲁ'], .cls false [.rng 'И' 'И', .rng 'и' 'и'], .cls false [.rng 'Н' 'Н', .rng 'н' 'н'], .cls false [.rng 'А' 'А', .rng 'а' 'а']], .seqs [.cls false [.rng 'З' 'З', .rng 'з' 'з'], .cls false [.rng 'А' 'А', .rng 'а' 'а'], .lit [' '], .number, .lit [' '], .cls false [.rng 'Г' 'Г', .rng 'г' 'г'], .cls false [.rng 'О' 'О', .rng 'о' 'о', .rng 'ᲂ' 'ᲂ'], .cls false [.rng 'Д' 'Д', .rng 'д' 'д', .rng 'ᲁ' 'ᲁ'], .cls false [.rng 'И' 'И', .rng 'и' 'и'], .cls false [.rng 'Н' 'Н', .rng 'н' 'н'], .cls false [.rng 'У' 'У', .rng 'у' 'у']], .seqs [.cls false [.rng 'З' 'З', .rng 'з' 'з'], .cls false [.rng 'А' 'А', .rng 'а' 'а'], .lit [' '], .number, .lit [' '], .cls false [.rng 'М' 'М', .rng 'м' 'м'], .cls false [.rng 'Е' 'Е', .rng 'е' 'е'], .cls false [.rng 'С' 'С', .rng 'с' 'с', .rng 'ᲃ' 'ᲃ'], .cls false [.rng 'Е' 'Е', .rng 'е' 'е'], .cls false [.rng 'Ц' 'Ц', .rng 'ц' 'ц'], .cls false [.rng 'И' 'И', .rng 'и' 'и']], .seqs [.cls false [.rng 'З' 'З', .rng 'з' 'з'], .cls false [.rng 'А' 'А', .rng 'а' 'а'], .lit [' '], .number, .lit [' '], .cls false [.rng 'М' 'М', .rng 'м' 'м'], .cls false [.rng 'И' 'И', .rng 'и' 'и'], .cls false [.rng 'Н' 'Н', .rng 'н' 'н'], .cls false [.rng 'У' 'У', .rng 'у' 'у'], .cls false [.rng 'Т' 'Т', .rng 'т' 'т', .rng 'ᲄ' 'ᲄ', .rng 'ᲅ' 'ᲅ'], .cls false [.rng 'А' 'А', .rng 'а' 'а']], .seqs [.cls false [.rng 'З' 'З', .rng 'з' 'з'], .cls false [.rng 'А' 'А', .rng 'а' 'а'], .lit [' '], .number, .lit [' '], .cls false [.rng 'Н' 'Н', .rng 'н' 'н'], .cls false [.rng 'Е' 'Е', .rng 'е' 'е'], .cls false [.rng 'Д' 'Д', .rng 'д' 'д', .rng 'ᲁ' 'ᲁ'], .cls false [.rng 'Е' 'Е', .rng 'е' 'е'], .cls false [.rng 'Љ' 'Љ', .rng 'љ' 'љ'], .cls false [.rng 'А' 'А', .rng 'а' 'а']], .seqs [.cls false [.rng 'З' 'З', .rng 'з' 'з'], .cls false [.rng 'А' 'А', .rng 'а' 'а'], .lit [' '], .number, .lit [' '], .cls false [.rng 'Н' 'Н', .rng 'н' 'н'], .cls false [.rng 'Е' 'Е', .rng 'е' 'е'], .cls false [.rng 'Д' 'Д', .rng 'д' 'д', .rng 'ᲁ' 'ᲁ'], .cls false [.rng 'Е' 'Е', .rng 'е' 'е'], .cls false [.rng 'Љ' 'Љ', .rng 'љ' 'љ'], .cls false [.rng 'У' 'У', .rng 'у' 'у']], .seqs [.cls false [.rng 'З' 'З', .rng 'з' 'з'], .cls false [.rng 'А' 'А', .rng 'а' 'а'], .lit [' '], .number, .lit [' '], .cls false [.rng 'М' 'М', .rng 'м' 'м'], .cls false [.rng 'Е' 'Е', .rng 'е' 'е'], .cls false [.rng 'С' 'С', .rng 'с' 'с', .rng 'ᲃ' 'ᲃ'], .cls false [.rng 'Е' 'Е', .rng 'е' 'е'], .cls false [.rng 'Ц' 'Ц', .rng 'ц' 'ц']], .seqs [.cls false [.rng 'З' 'З', .rng 'з' 'з'], .cls false [.rng 'А' 'А', .rng 'а' 'а'], .lit [' '], .number, .lit [' '], .cls false [.rng 'М' 'М', .rng 'м' 'м'], .cls false [.rng 'И' 'И', .rng 'и' 'и'], .cls false [.rng 'Н' 'Н', .rng 'н' 'н'], .cls false [.rng 'У' 'У', .rng 'у' 'у'], .cls false [.rng 'Т' 'Т', .rng 'т' 'т', .rng 'ᲄ' 'ᲄ', .rng 'ᲅ' 'ᲅ']], .seqs [.cls false [.rng 'П' 'П', .rng 'п' 'п'], .cls false [.rng 'Р' 'Р', .rng 'р' 'р'], .cls false [.rng 'Е' 'Е', .rng 'е' 'е'], .lit [' '], .number, .lit [' '], .cls false [.rng 'Д' 'Д', .rng 'д' 'д', .rng 'ᲁ' 'ᲁ'], .cls false [.rng 'А' 'А', .rng 'а' 'а'], .cls false [.rng 'Н' 'Н', .rng 'н' 'н'], .cls false [.rng 'А' 'А', .rng 'а' 'а']], .seqs [.cls false [.rng 'П' 'П', .rng 'п' 'п'], .cls false [.rng 'Р' 'Р', .rng 'р' 'р'], .cls false [.rng 'Е' 'Е', .rng 'е' 'е'], .lit [' '], .number, .lit [' '], .cls false [.rng 'С' 'С', .rng 'с' 'с', .rng 'ᲃ' 'ᲃ'], .cls false [.rng 'А' 'А', .rng 'а' 'а'], .cls false [.rng 'Т' 'Т', .rng 'т' 'т', .rng 'ᲄ' 'ᲄ', .rng 'ᲅ' 'ᲅ'], .cls false [.rng 'А' 'А', .rng 'а' 'а']], .seqs [.cls false [.rng 'П' 'П', .rng 'п' 'п'], .cls false [.rng 'Р' 'Р', .rng 'р' 'р'], .cls false [.rng 'Е' 'Е', .rng 'е' 'е'], .lit [' '], .number, .lit [' '], .cls false [.rng 'С' 'С', .rng 'с' 'с', .rng 'ᲃ' 'ᲃ'], .cls false [.rng 'А' 'А', .rng 'а' 'а'], .cls false [.rng 'Т' 'Т', .rng 'т' 'т', .rng 'ᲄ' 'ᲄ', .rng 'ᲅ' 'ᲅ'], .cls false [.rng 'И' 'И', .rng 'и' 'и']], .seqs [.cls false [.rng 'З' 'З', .rng 'з' 'з'], .cls false [.rng 'А' 'А', .rng 'а' 'а'], .lit [' '], .number, .lit [' '], .cls false [.rng 'Д' 'Д', .rng 'д' 'д', .rng 'ᲁ' 'ᲁ'], .cls false [.rng 'А' 'А', .rng 'а' 'а'], .cls false [.rng 'Н' 'Н', .rng 'н' 'н'], .cls false [.rng 'А' 'А', .rng 'а' 'а']], .seqs [.cls false [.rng 'З' 'З', .rng 'з' 'з'], .cls false [.rng 'А' 'А', .rng 'а' 'а'], .lit [' '], .number, .lit [' '], .cls false [.rng 'С' 'С', .rng 'с' 'с', .rng 'ᲃ' 'ᲃ'], .cls false [.rng 'А' 'А', .rng 'а' 'а'], .cls false [.rng 'Т' 'Т', .rng 'т' 'т', .rng 'ᲄ' 'ᲄ', .rng 'ᲅ' 'ᲅ'], .cls false [.rng 'И' 'И', .rng 'и' 'и']], .seqs [.cls false [.rng 'П' 'П', .rng 'п' 'п'], .cls false [.rng 'Р' 'Р', .rng 'р' 'р'], .cls false [.rng 'Е' 'Е', .rng 'е' 'е'], .lit [' '], .number, .lit [' '], .cls false [.rng 'Г' 'Г', .rng 'г' 'г'], .cls false [.rng 'О' 'О', .rng 'о' 'о', .rng 'ᲂ' 'ᲂ'], .cls false [.rng 'Д' 'Д', .rng 'д' 'д', .rng 'ᲁ' 'ᲁ']], .seqs [.cls false [.rng 'П' 'П', .rng 'п' 'п'], .cls false [.rng 'Р' 'Р', .rng 'р' 'р'], .cls false [.rng 'Е' 'Е', .rng 'е' 'е'], .lit [' '], .number, .lit [' '], .cls false [.rng 'М' 'М', .rng 'м' 'м'], .cls false [.rng 'Е' 'Е', .rng 'е' 'е'], .cls false [.rng 'С' 'С', .rng 'с' 'с', .rng 'ᲃ' 'ᲃ']], .seqs [.cls false [.rng 'П' 'П', .rng 'п' 'п'], .cls false [.rng 'Р' 'Р', .rng 'р' 'р'], .cls false [.rng 'Е' 'Е', .rng 'е' 'е'], .lit [' '], .number, .lit [' '], .cls false [.rng 'М' 'М', .rng 'м' 'м'], .cls false [.rng 'И' 'И', .rng 'и' 'и'], .cls false [.rng 'Н' 'Н', .rng 'н' 'н']], .seqs [.cls false [.rng 'П' 'П', .rng 'п' 'п'], .cls false [.rng 'Р' 'Р', .rng 'р' 'р'], .cls false [.rng 'Е' 'Е', .rng 'е' 'е'], .lit [' '], .number, .lit [' '], .cls false [.rng 'Н' 'Н', .rng 'н' 'н'], .cls false [.rng 'Е' 'Е', .rng 'е' 'е'], .cls false [.rng 'Д' 'Д', .rng 'д' 'д', .rng 'ᲁ' 'ᲁ']], .seqs [.cls false [.rng 'П' 'П', .rng 'п' 'п'], .cls false [.rng 'Р' 'Р', .rng 'р' 'р'], .cls false [.rng 'Е' 'Е', .rng 'е' 'е'], .lit [' '], .number, .lit [' '], .cls false [.rng 'С' 'С', .rng 'с' 'с', .rng 'ᲃ' 'ᲃ'], .cls false [.rng 'Е' 'Е', .rng 'е' 'е'], .cls false [.rng 'К' 'К', .rng 'к' 'к']], .seqs [.cls false [.rng 'З' 'З', .rng 'з' 'з'], .cls false [.rng 'А' 'А', .rng 'а' 'а'], .lit [' '], .number, .lit [' '], .cls false [.rng 'Г' 'Г', .rng 'г' 'г'], .cls false [.rng 'О' 'О', .rng 'о' 'о', .rng 'ᲂ' 'ᲂ'], .cls false [.rng 'Д' 'Д', .rng 'д' 'д', .rng 'ᲁ' 'ᲁ']], .seqs [.cls false [.rng 'З' 'З', .rng 'з' 'з'], .cls false [.rng 'А' 'А', .rng 'а' 'а'], .lit [' '], .number, .lit [' '], .cls false [.rng 'Д' 'Д', .rng 'д' 'д', .rng 'ᲁ' 'ᲁ'], .cls false [.rng 'А' 'А', .rng 'а' 'а'], .cls false [.rng 'Н' 'Н', .rng 'н' 'н']], .seqs [.cls false [.rng 'З' 'З', .rng 'з' 'з'], .cls false [.rng 'А' 'А', .rng 'а' 'а'], .lit [' '], .number, .lit [' '], .cls false [.rng 'М' 'М', .rng 'м' 'м'], .cls false [.rng 'Е' 'Е', .rng 'е' 'е'], .cls false [.rng 'С' 'С', .rng 'с' 'с', .rng 'ᲃ' 'ᲃ']], .seqs [.cls false [.rng 'З' 'З', .rng 'з' 'з'], .cls false [.rng 'А' 'А', .rng 'а' 'а'], .lit [' '], .number, .lit [' '], .cls false [.rng 'М' 'М', .rng 'м' 'м'], .cls false [.rng 'И' 'И', .rng 'и' 'и'], .cls false [.rng 'Н' 'Н', .rng 'н' 'н']], .seqs [.cls false [.rng 'З' 'З', .rng 'з' 'з'], .cls false [.rng 'А' 'А', .rng 'а' 'а'], .lit [' '], .number, .lit [' '], .cls false [.rng 'Н' 'Н', .rng 'н' 'н'], .cls false [.rng 'Е' 'Е', .rng 'е' 'е'], .cls false [.rng 'Д' 'Д', .rng 'д' 'д', .rng 'ᲁ' 'ᲁ']], .seqs [.cls false [.rng 'З' 'З', .rng 'з' 'з'], .cls false [.rng 'А' 'А', .rng 'а' 'а'], .lit [' '], .number, .lit [' '], .cls false [.rng 'С' 'С', .rng 'с' 'с', .rng 'ᲃ' 'ᲃ'], .cls false [.rng 'А' 'А', .rng 'а' 'а'], .cls false [.rng 'Т' 'Т', .rng 'т' 'т', .rng 'ᲄ' 'ᲄ', .rng 'ᲅ' 'ᲅ']], .seqs [.cls false [.rng 'З' 'З', .rng 'з' 'з'], .cls false [.rng 'А' 'А', .rng 'а' 'а'], .lit [' '], .number, .lit [' '], .cls false [.rng 'С' 'С', .rng 'с' 'с', .rng 'ᲃ' 'ᲃ'], .cls false [.rng 'Е' 'Е', .rng 'е' 'е'], .cls false [.rng 'К' 'К', .rng 'к' 'к']], .seqs [.cls false [.rng 'П' 'П', .rng 'п' 'п'], .cls false [.rng 'Р' 'Р', .rng 'р' 'р'], .cls false [.rng 'Е' 'Е', .rng 'е' 'е'], .lit [' '], .number, .lit [' '], .cls false [.rng 'Г' 'Г', .rng 'г' 'г']], .seqs [.cls false [.rng 'П' 'П', .rng 'п' 'п'], .cls false [.rng 'Р' 'Р', .rng 'р' 'р'], .cls false [.rng 'Е' 'Е', .rng 'е' 'е'], .lit [' '], .number, .lit [' '], .cls false [.rng 'Д' 'Д', .rng 'д' 'д', .rng 'ᲁ' 'ᲁ']], .seqs [.cls false [.rng 'П' 'П', .rng 'п' 'п'], .cls false [.rng 'Р' 'Р', .rng 'р' 'р'], .cls false [.rng 'Е' 'Е', .rng 'е' 'е'], .lit [' '], .number, .lit [' '], .cls false [.rng 'М' 'М', .rng 'м' 'м']], .seqs [.cls false [.rng 'П' 'П', .rng 'п' 'п'], .cls false [.rng 'Р' 'Р', .rng 'р' 'р'], .cls false [.rng 'Е' 'Е', .rng 'е' 'е'], .lit [' '], .number, .lit [' '], .cls false [.rng 'Н' 'Н', .rng 'н' 'н']], .seqs [.cls false [.rng 'П' 'П', .rng 'п' 'п'], .cls false [.rng 'Р' 'Р', .rng 'р' 'р'], .cls false [.rng 'Е' 'Е', .rng 'е' 'е'], .lit [' '], .number, .lit [' '], .cls false [.rng 'С' 'С', .rng 'с' 'с', .rng 'ᲃ' 'ᲃ']], .seqs [.cls false [.rng 'П' 'П', .rng 'п' 'п'], .cls false [.rng 'Р' 'Р', .rng 'р' 'р'], .cls false [.rng 'Е' 'Е', .rng 'е' 'е'], .lit [' '], .number, .lit [' '], .cls false [.rng 'Ч' 'Ч', .rng 'ч' 'ч']], .seqs [.cls false [.rng 'З' 'З', .rng 'з' 'з'], .cls false [.rng 'А' 'А', .rng 'а' 'а'], .lit [' '], .number, .lit [' '], .cls false [.rng 'Г' 'Г', .rng 'г' 'г']], .seqs [.cls false [.rng 'З' 'З', .rng 'з' 'з'], .cls false [.rng 'А' 'А', .rng 'а' 'а'], .lit [' '], .number, .lit [' '], .cls false [.rng 'Д' 'Д', .rng 'д' 'д', .rng 'ᲁ' 'ᲁ']], .seqs [.cls false [.rng 'З' 'З', .rng 'з' 'з'], .cls false [.rng 'А' 'А', .rng 'а' 'а'], .lit [' '], .number, .lit [' '], .cls false [.rng 'М' 'М', .rng 'м' 'м']], .seqs [.cls false [.rng 'З' 'З', .rng 'з' 'з'], .cls false [.rng 'А' 'А', .rng 'а' 'а'], .lit [' '], .number, .lit [' '], .cls false [.rng 'Н' 'Н', .rng 'н' 'н']], .seqs [.cls false [.rng 'З' 'З', .rng 'з' 'з'], .cls false [.rng 'А' 'А', .rng 'а' 'а'], .lit [' '], .number, .lit [' '], .cls false [.rng 'С' 'С', .rng 'с' 'с', .rng 'ᲃ' 'ᲃ']], .seqs [.cls false [.rng 'З' 'З', .rng 'з' 'з'], .cls false [.rng 'А' 'А', .rng 'а' 'а'], .lit [' '], .number, .lit [' '], .cls false [.rng 'Ч' 'Ч', .rng 'ч' 'ч']]]), .grp 3 (.alts [.eos, .cls true [.letter, .mark, .digit], .lit ['_']])], 3),
  rxExact := some (.seqs [.bos, .grp 1 (.alts [.seqs [.cls false [.rng 'П' 'П', .rng 'п' 'п'], .cls false [.rng 'Р' 'Р', .rng 'р' 'р'], .cls false [.rng 'Е' 'Е', .rng 'е' 'е'], .lit [' '], .number, .lit [' '], .cls false [.rng 'С' 'С', .rng 'с' 'с', .rng 'ᲃ' 'ᲃ'], .cls false [.rng 'Е' 'Е', .rng 'е' 'е'], .cls false [.rng 'К' 'К', .rng 'к' 'к'], .cls false [.rng 'У' 'У', .rng 'у' 'у'], .cls false [.rng 'Н' 'Н', .rng 'н' 'н'], .cls false [.rng 'Д' 'Д', .rng 'д' 'д', .rng 'ᲁ' 'ᲁ'], .cls false [.rng 'Е' 'Е', .rng 'е' 'е']], .seqs [.cls false [.rng 'П' 'П', .rng 'п' 'п'], .cls false [.rng 'Р' 'Р', .rng 'р' 'р'], .cls false [.rng 'Е' 'Е', .rng 'е' 'е'], .lit [' '], .number, .lit [' '], .cls false [.rng 'С' 'С', .rng 'с' 'с', .rng 'ᲃ' 'ᲃ'], .cls false [.rng 'Е' 'Е', .rng 'е' 'е'], .cls false [.rng 'К' 'К', .rng 'к' 'к'], .cls false [.rng 'У' 'У', .rng 'у' 'у'], .cls false [.rng 'Н' 'Н', .rng 'н' 'н'], .cls false [.rng 'Д' 'Д', .rng 'д' 'д', .rng 'ᲁ' 'ᲁ'], .cls false [.rng 'И' 'И', .rng 'и' 'и']], .seqs [.cls false [.rng 'З' 'З', .rng 'з' 'з'], .cls false [.rng 'А' 'А', .rng 'а' 'а'], .lit [' '], .number, .lit [' '], .cls false [.rng 'С' 'С', .rng 'с' 'с', .rng 'ᲃ' 'ᲃ'], .cls false [.rng 'Е' 'Е', .rng 'е' 'е'], .cls false [.rng 'К' 'К', .rng 'к' 'к'], .cls false [.rng 'У' 'У', .rng 'у' 'у'], .cls false [.rng 'Н' 'Н', .rng 'н' 'н'], .cls false [.rng 'Д' 'Д', .rng 'д' 'д', .rng 'ᲁ' 'ᲁ'], .cls false [.rng 'И' 'И', .rng 'и' 'и']], .seqs [.cls false [.rng 'З' 'З', .rng 'з' 'з'], .cls false [.rng 'А' 'А', .rng 'а' 'а'], .lit [' '], .number, .lit [' '], .cls false [.rng 'С' 'С', .rng 'с' 'с', .rng 'ᲃ' 'ᲃ'], .cls false [.rng 'Е' 'Е', .rng 'е' 'е'], .cls false [.rng 'К' 'К', .rng 'к' 'к'], .cls false [.rng 'У' 'У', .rng 'у' 'у'], .cls false [.rng 'Н' 'Н', .rng 'н' 'н'], .cls false [.rng 'Д' 'Д', .rng 'д' 'д', .rng 'ᲁ' 'ᲁ'], .cls false [.rng 'У' 'У', .rng 'у' 'у']], .seqs [.cls false [.rng 'П' 'П', .rng 'п' 'п'], .cls false [.rng 'Р' 'Р', .rng 'р' 'р'], .cls false [.rng 'Е' 'Е', .rng 'е' 'е'], .lit [' '], .number, .lit [' '], .cls false [.rng 'Г' 'Г', .rng 'г' 'г'], .cls false [.rng 'О' 'О', .rng 'о' 'о', .rng 'ᲂ' 'ᲂ'], .cls false [.rng 'Д' 'Д', .rng 'д' 'д', .rng 'ᲁ' 'ᲁ'], .cls false [.rng 'И' 'И', .rng 'и' 'и'], .cls false [.rng 'Н' 'Н', .rng 'н' 'н'], .cls false [.rng 'А' 'А', .rng 'а' 'а']], .seqs [.cls false [.rng 'П' 'П', .rng 'п' 'п'], .cls false [.rng 'Р' 'Р', .rng 'р' 'р'], .cls false [.rng 'Е' 'Е', .rng 'е' 'е'], .lit [' '], .number, .lit [' '], .cls false [.rng 'Г' 'Г', .rng 'г' 'г'], .cls false [.rng 'О' 'О', .rng 'о' 'о', .rng 'ᲂ' 'ᲂ'], .cls false [.rng 'Д' 'Д', .rng 'д' 'д', .rng 'ᲁ' 'ᲁ'], .cls false [.rng 'И' 'И', .rng 'и' 'и'], .cls false [.rng 'Н' 'Н', .rng 'н' 'н'], .cls false [.rng 'Е' 'Е', .rng 'е' 'е']], .seqs [.cls false [.rng 'П' 'П', .rng 'п' 'п'], .cls false [.rng 'Р' 'Р', .rng 'р' 'р'], .cls false [.rng 'Е' 'Е', .rng 'е' 'е'], .lit [' '], .number, .lit [' '], .cls false [.rng 'М' 'М', .rng 'м' 'м'], .cls false [.rng 'Е' 'Е', .rng 'е' 'е'], .cls false [.rng 'С' 'С', .rng 'с' 'с', .rng 'ᲃ' 'ᲃ'], .cls false [.rng 'Е' 'Е', .rng 'е' 'е'], .cls false [.rng 'Ц' 'Ц', .rng 'ц' 'ц'], .cls false [.rng 'А' 'А', .rng 'а' 'а']], .seqs [.cls false [.rng 'П' 'П', .rng 'п' 'п'], .cls false [.rng 'Р' 'Р', .rng 'р' 'р'], .cls false [.rng 'Е' 'Е', .rng 'е' 'е'], .lit [' '], .number, .lit [' '], .cls false [.rng 'М' 'М', .rng 'м' 'м'], .cls false [.rng 'Е' 'Е', .rng 'е' 'е'], .cls false [.rng 'С' 'С', .rng 'с' 'с', .rng 'ᲃ' 'ᲃ'], .cls false [.rng 'Е' 'Е', .rng 'е' 'е'], .cls false [.rng 'Ц' 'Ц', .rng 'ц' 'ц'], .cls false [.rng 'И' 'И', .rng 'и' 'и']], .seqs [.cls false [.rng 'П' 'П', .rng 'п' 'п'], .cls false [.rng 'Р' 'Р', .rng 'р' 'р'], .cls false [.rng 'Е' 'Е', .rng 'е' 'е'], .lit [' '], .number, .lit [' '], .cls false [.rng 'М' 'М', .rng 'м' 'м'], .cls false [.rng 'И' 'И', .rng 'и' 'и'], .cls false [.rng 'Н' 'Н', .rng 'н' 'н'], .cls false [.rng 'У' 'У', .rng 'у' 'у'], .cls false [.rng 'Т' 'Т', .rng 'т' 'т', .rng 'ᲄ' 'ᲄ', .rng 'ᲅ' 'ᲅ'], .cls false [.rng 'А' 'А', .rng 'а' 'а']], .seqs [.cls false [.rng 'П' 'П', .rng 'п' 'п'], .cls false [.rng 'Р' 'Р', .rng 'р' 'р'], .cls false [.rng 'Е' 'Е', .rng 'е' 'е'], .lit [' '], .number, .lit [' '], .cls false [.rng 'Н' 'Н', .rng 'н' 'н'], .cls false [.rng 'Е' 'Е', .rng 'е' 'е'], .cls false [.rng 'Д' 'Д', .rng 'д' 'д', .rng 'ᲁ' 'ᲁ'], .cls false [.rng 'Е' 'Е', .rng 'е' 'е'], .cls false [.rng 'Љ' 'Љ', .rng 'љ' 'љ'], .cls false [.rng 'А' 'А', .rng 'а' 'а']], .seqs [.cls false [.rng 'П' 'П', .rng 'п' 'п'], .cls false [.rng 'Р' 'Р', .rng 'р' 'р'], .cls false [.rng 'Е' 'Е', .rng 'е' 'е'], .lit [' '], .number, .lit [' '], .cls false [.rng 'Н' 'Н', .rng 'н' 'н'], .cls false [.rng 'Е' 'Е', .rng 'е' 'е'], .cls false [.rng 'Д' 'Д', .rng 'д' 'д', .rng 'ᲁ' 'ᲁ'], .cls false [.rng 'Е' 'Е', .rng 'е' 'е'], .cls false [.rng 'Љ' 'Љ', .rng 'љ' 'љ'], .cls false [.rng 'Е' 'Е', .rng 'е' 'е']], .seqs [.cls false [.rng 'З' 'З', .rng 'з' 'з'], .cls false [.rng 'А' 'А', .rng 'а' 'а'], .lit [' '], .number, .lit [' '], .cls false [.rng 'Г' 'Г', .rng 'г' 'г'], .cls false [.rng 'О' 'О', .rng 'о' 'о', .rng 'ᲂ' 'ᲂ'], .cls false [.rng 'Д' 'Д', .rng 'д' 'д', .rng 'ᲁ' 'ᲁ'], .cls false [.rng 'И' 'И', .rng 'и' 'и'], .cls false [.rng 'Н' 'Н', .rng 'н' 'н'], .cls false [.rng 'А' 'А', .rng 'а' 'а']], .seqs [.cls false [.rng 'З' 'З', .rng 'з' 'з'], .cls false [.rng 'А' 'А', .rng 'а' 'а'], .lit [' '], .number, .lit [' '], .cls false [.rng 'Г' 'Г', .rng 'г' 'г'], .cls false [.rng 'О' 'О', .rng 'о' 'о', .rng 'ᲂ' 'ᲂ'], .cls false [.rng 'Д' 'Д', .rng 'д' 'д', .rng 'ᲁ' 'ᲁ'], .cls false [.rng 'И' 'И', .rng 'и' 'и'], .cls false [.rng 'Н' 'Н', .rng 'н' 'н'], .cls false [.rng 'У' 'У', .rng 'у' 'у']], .seqs [.cls false [.rng 'З' 'З', .rng 'з' 'з'], .cls false [.rng 'А' 'А', .rng 'а' 'а'], .lit [' '], .number, .lit [' '], .cls false [.rng 'М' 'М', .rng 'м' 'м'], .cls false [.rng 'Е' 'Е', .rng 'е' 'е'], .cls false [.rng 'С' 'С', .rng 'с' 'с', .rng 'ᲃ' 'ᲃ'], .cls false [.rng 'Е' 'Е', .rng 'е' 'е'], .cls false [.rng 'Ц' 'Ц', .rng 'ц' 'ц'], .cls false [.rng 'И' 'И', .rng 'и' 'и']], .seqs [.cls false [.rng 'З' 'З', .rng 'з' 'з'], .cls false [.rng 'А' 'А', .rng 'а' 'а'], .lit [' '], .number, .lit [' '], .cls false [.rng 'М' 'М', .rng 'м' 'м'], .cls false [.rng 'И' 'И', .rng 'и' 'и'], .cls false [.rng 'Н' 'Н', .rng 'н' 'н'], .cls false [.rng 'У' 'У', .rng 'у' 'у'], .cls false [.rng 'Т' 'Т', .rng 'т' 'т', .rng 'ᲄ' 'ᲄ', .rng 'ᲅ' 'ᲅ'], .cls false [.rng 'А' 'А', .rng 'а' 'а']], .seqs [.cls false [.rng 'З' 'З', .rng 'з' 'з'], .cls false [.rng 'А' 'А', .rng 'а' 'а'], .lit [' '], .number, .lit [' '], .cls false [.rng 'Н' 'Н', .rng 'н' 'н'], .cls false [.rng 'Е' 'Е', .rng 'е' 'е'], .cls false [.rng 'Д' 'Д', .rng 'д' 'д', .rng 'ᲁ' 'ᲁ'], .cls false [.rng 'Е' 'Е', .rng 'е' 'е'], .cls false [.rng 'Љ' 'Љ', .rng 'љ' 'љ'], .cls false [.rng 'А' 'А', .rng 'а' 'а']], .seqs [.cls false [.rng 'З' 'З', .rng 'з' 'з'], .cls false [.rng 'А' 'А', .rng 'а' 'а'], .lit [' '], .number, .lit [' '], .cls false [.rng 'Н' 'Н', .rng 'н' 'н'], .cls false [.rng 'Е' 'Е', .rng 'е' 'е'], .cls false [.rng 'Д' 'Д', .rng 'д' 'д', .rng 'ᲁ' 'ᲁ'], .cls false [.rng 'Е' 'Е', .rng 'е' 'е'], .cls false [.rng 'Љ' 'Љ', .rng 'љ' 'љ'], .cls false [.rng 'У' 'У', .rng 'у' 'у']], .seqs [.cls false [.rng 'З' 'З', .rng 'з' 'з'], .cls false [.rng 'А' 'А', .rng 'а' 'а'], .lit [' '], .number, .lit [' '], .cls false [.rng 'М' 'М', .rng 'м' 'м'], .cls false [.rng 'Е' 'Е', .rng 'е' 'е'], .cls false [.rng 'С' 'С', .rng 'с' 'с', .rng 'ᲃ' 'ᲃ'], .cls false [.rng 'Е' 'Е', .rng 'е' 'е'], .cls false [.rng 'Ц' 'Ц', .rng 'ц' 'ц']], .seqs [.cls false [.rng 'З' 'З', .rng 'з' 'з'], .cls false [.rng 'А' 'А', .rng 'а' 'а'], .lit [' '], .number, .lit [' '], .cls false [.rng 'М' 'М', .rng 'м' 'м'], .cls false [.rng 'И' 'И', .rng 'и' 'и'], .cls false [.rng 'Н' 'Н', .rng 'н' 'н'], .cls false [.rng 'У' 'У', .rng 'у' 'у'], .cls false [.rng 'Т' 'Т', .rng 'т' 'т', .rng 'ᲄ' 'ᲄ', .rng 'ᲅ' 'ᲅ']], .seqs [.cls false [.rng 'П' 'П', .rng 'п' 'п'], .cls false [.rng 'Р' 'Р', .rng 'р' 'р'], .cls false [.rng 'Е' 'Е', .rng 'е' 'е'], .lit [' '], .number, .lit [' '], .cls false [.rng 'Д' 'Д', .rng 'д' 'д', .rng 'ᲁ' 'ᲁ'], .cls false [.rng 'А' 'А', .rng 'а' 'а'], .cls false [.rng 'Н' 'Н', .rng 'н' 'н'], .cls false [.rng 'А' 'А', .rng 'а' 'а']], .seqs [.cls false [.rng 'П' 'П', .rng 'п' 'п'], .cls false [.rng 'Р' 'Р', .rng 'р' 'р'], .cls false [.rng 'Е' 'Е', .rng 'е' 'е'], .lit [' '], .number, .lit [' '], .cls false [.rng 'С' 'С', .rng 'с' 'с', .rng 'ᲃ' 'ᲃ'], .cls false [.rng 'А' 'А', .rng 'а' 'а'], .cls false [.rng 'Т' 'Т', .rng 'т' 'т', .rng 'ᲄ' 'ᲄ', .rng 'ᲅ' 'ᲅ'], .cls false [.rng 'А' 'А', .rng 'а' 'а']], .seqs [.cls false [.rng 'П' 'П', .rng 'п' 'п'], .cls false [.rng 'Р' 'Р', .rng 'р' 'р'], .cls false [.rng 'Е' 'Е', .rng 'е' 'е'], .lit [' '], .number, .lit [' '], .cls false [.rng 'С' 'С', .rng 'с' 'с', .rng 'ᲃ' 'ᲃ'], .cls false [.rng 'А' 'А', .rng 'а' 'а'], .cls false [.rng 'Т' 'Т', .rng 'т' 'т', .rng 'ᲄ' 'ᲄ', .rng 'ᲅ' 'ᲅ'], .cls false [.rng 'И' 'И', .rng 'и' 'и']], .seqs [.cls false [.rng 'З' 'З', .rng 'з' 'з'], .cls false [.rng 'А' 'А', .rng 'а' 'а'], .lit [' '], .number, .lit [' '], .cls false [.rng 'Д' 'Д', .rng 'д' 'д', .rng 'ᲁ' 'ᲁ'], .cls false [.rng 'А' 'А', .rng 'а' 'а'], .cls false [.rng 'Н' 'Н', .rng 'н' 'н'], .cls false [.rng 'А' 'А', .rng 'а' 'а']], .seqs [.cls false [.rng 'З' 'З', .rng 'з' 'з'], .cls false [.rng 'А' 'А', .rng 'а' 'а'], .lit [' '], .number, .lit [' '], .cls false [.rng 'С' 'С', .rng 'с' 'с', .rng 'ᲃ' 'ᲃ'], .cls false [.rng 'А' 'А', .rng 'а' 'а'], .cls false [.rng 'Т' 'Т', .rng 'т' 'т', .rng 'ᲄ' 'ᲄ', .rng 'ᲅ' 'ᲅ'], .cls false [.rng 'И' 'И', .rng 'и' 'и']], .seqs [.cls false [.rng 'П' 'П', .rng 'п' 'п'], .cls false [.rng 'Р' 'Р', .rng 'р' 'р'], .cls false [.rng 'Е' 'Е', .rng 'е' 'е'], .lit [' '], .number, .lit [' '], .cls false [.rng 'Г' 'Г', .rng 'г' 'г'], .cls false [.rng 'О' 'О', .rng 'о' 'о', .rng 'ᲂ' 'ᲂ'], .cls false [.rng 'Д' 'Д', .rng 'д' 'д', .rng 'ᲁ' 'ᲁ']], .seqs [.cls false [.rng 'П' 'П', .rng 'п' 'п'], .cls false [.rng 'Р' 'Р', .rng 'р' 'р'], .cls false [.rng 'Е' 'Е', .rng 'е' 'е'], .lit [' '], .number, .lit [' '], .cls false [.rng 'М' 'М', .rng 'м' 'м'], .cls false [.rng 'Е' 'Е', .rng 'е' 'е'], .cls false [.rng 'С' 'С', .rng 'с' 'с', .rng 'ᲃ' 'ᲃ']], .seqs [.cls false [.rng 'П' 'П', .rng 'п' 'п'], .cls false [.rng 'Р' 'Р', .rng 'р' 'р'], .cls false [.rng 'Е' 'Е', .rng 'е' 'е'], .lit [' '], .number, .lit [' '], .cls false [.rng 'М' 'М', .rng 'м' 'м'], .cls false [.rng 'И' 'И', .rng 'и' 'и'], .cls false [.rng 'Н' 'Н', .rng 'н' 'н']], .seqs [.cls false [.rng 'П' 'П', .rng 'п' 'п'], .cls false [.rng 'Р' 'Р', .rng 'р' 'р'], .cls false [.rng 'Е' 'Е', .rng 'е' 'е'], .lit [' '], .number, .lit [' '], .cls false [.rng 'Н' 'Н', .rng 'н' 'н'], .cls false [.rng 'Е' 'Е', .rng 'е' 'е'], .cls false [.rng 'Д' 'Д', .rng 'д' 'д', .rng 'ᲁ' 'ᲁ']], .seqs [.cls false [.rng 'П' 'П', .rng 'п' 'п'], .cls false [.rng 'Р' 'Р', .rng 'р' 'р'], .cls false [.rng 'Е' 'Е', .rng 'е' 'е'], .lit [' '], .number, .lit [' '], .cls false [.rng 'С' 'С', .rng 'с' 'с', .rng 'ᲃ' 'ᲃ'], .cls false [.rng 'Е' 'Е', .rng 'е' 'е'], .cls false [.rng 'К' 'К', .rng 'к' 'к']], .seqs [.cls false [.rng 'З' 'З', .rng 'з' 'з'], .cls false [.rng 'А' 'А', .rng 'а' 'а'], .lit [' '], .number, .lit [' '], .cls false [.rng 'Г' 'Г', .rng 'г' 'г'], .cls false [.rng 'О' 'О', .rng 'о' 'о', .rng 'ᲂ' 'ᲂ'], .cls false [.rng 'Д' 'Д', .rng 'д' 'д', .rng 'ᲁ' 'ᲁ']], .seqs [.cls false [.rng 'З' 'З', .rng 'з' 'з'], .cls false [.rng 'А' 'А', .rng 'а' 'а'], .lit [' '], .number, .lit [' '], .cls false [.rng 'Д' 'Д', .rng 'д' 'д', .rng 'ᲁ' 'ᲁ'], .cls false [.rng 'А' 'А', .rng 'а' 'а'], .cls false [.rng 'Н' 'Н', .rng 'н' 'н']], .seqs [.cls false [.rng 'З' 'З', .rng 'з' 'з'], .cls false [.rng 'А' 'А', .rng 'а' 'а'], .lit [' '], .number, .lit [' '], .cls false [.rng 'М' 'М', .rng 'м' 'м'], .cls false [.rng 'Е' 'Е', .rng 'е' 'е'], .cls false [.rng 'С' 'С', .rng 'с' 'с', .rng 'ᲃ' 'ᲃ']], .seqs [.cls false [.rng 'З' 'З', .rng 'з' 'з'], .cls false [.rng 'А' 'А', .rng 'а' 'а'], .lit [' '], .number, .lit [' '], .cls false [.rng 'М' 'М', .rng 'м' 'м'], .cls false [.rng 'И' 'И', .rng 'и' 'и'], .cls false [.rng 'Н' 'Н', .rng 'н' 'н']], .seqs [.cls false [.rng 'З' 'З', .rng 'з' 'з'], .cls false [.rng 'А' 'А', .rng 'а' 'а'], .lit [' '], .number, .lit [' '], .cls false [.rng 'Н' 'Н', .rng 'н' 'н'], .cls false [.rng 'Е' 'Е', .rng 'е' 'е'], .cls false [.rng 'Д' 'Д', .rng 'д' 'д', .rng 'ᲁ' 'ᲁ']], .seqs [.cls false [.rng 'З' 'З', .rng 'з' 'з'], .cls false [.rng 'А' 'А', .rng 'а' 'а'], .lit [' '], .number, .lit [' '], .cls false [.rng 'С' 'С', .rng 'с' 'с', .rng 'ᲃ' 'ᲃ'], .cls false [.rng 'А' 'А', .rng 'а' 'а'], .cls false [.rng 'Т' 'Т', .rng 'т' 'т', .rng 'ᲄ' 'ᲄ', .rng 'ᲅ' 'ᲅ']], .seqs [.cls false [.rng 'З' 'З', .rng 'з' 'з'], .cls false [.rng 'А' 'А', .rng 'а' 'а'], .lit [' '], .number, .lit [' '], .cls false [.rng 'С' 'С', .rng 'с' 'с', .rng 'ᲃ' 'ᲃ'], .cls false [.rng 'Е' 'Е', .rng 'е' 'е'], .cls false [.rng 'К' 'К', .rng 'к' 'к']], .seqs [.cls false [.rng 'П' 'П', .rng 'п' 'п'], .cls false [.rng 'Р' 'Р', .rng 'р' 'р'], .cls false [.rng 'Е' 'Е', .rng 'е' 'е'], .lit [' '], .number, .lit [' '], .cls false [.rng 'Г' 'Г', .rng 'г' 'г']], .seqs [.cls false [.rng 'П' 'П', .rng 'п' 'п'], .cls false [.rng 'Р' 'Р', .rng 'р' 'р'], .cls false [.rng 'Е' 'Е', .rng 'е' 'е'], .lit [' '], .number, .lit [' '], .cls false [.rng 'Д' 'Д', .rng 'д' 'д', .rng 'ᲁ' 'ᲁ']], .seqs [.cls false [.rng 'П' 'П', .rng 'п' 'п'], .cls false [.rng 'Р' 'Р', .rng 'р' 'р'], .cls false [.rng 'Е' 'Е', .rng 'е' 'е'], .lit [' '], .number, .lit [' '], .cls false [.rng 'М' 'М', .rng 'м' 'м']], .seqs [.cls false [.rng 'П' 'П', .rng 'п' 'п'], .cls false [.rng 'Р' 'Р', .rng 'р' 'р'], .cls false [.rng 'Е' 'Е', .rng 'е' 'е'], .lit [' '], .number, .lit [' '], .cls false [.rng 'Н' 'Н', .rng 'н' 'н']], .seqs [.cls false [.rng 'П' 'П', .rng 'п' 'п'], .cls false [.rng 'Р' 'Р', .rng 'р' 'р'], .cls false [.rng 'Е' 'Е', .rng 'е' 'е'], .lit [' '], .number, .lit [' '], .cls false [.rng 'С' 'С', .rng 'с' 'с', .rng 'ᲃ' 'ᲃ']], .seqs [.cls false [.rng 'П' 'П', .rng 'п' 'п'], .cls false [.rng 'Р' 'Р', .rng 'р' 'р'], .cls false [.rng 'Е' 'Е', .rng 'е' 'е'], .lit [' '], .number, .lit [' '], .cls false [.rng 'Ч' 'Ч', .rng 'ч' 'ч']], .seqs [.cls false [.rng 'З' 'З', .rng 'з' 'з'], .cls false [.rng 'А' 'А', .rng 'а' 'а'], .lit [' '], .number, .lit [' '], .cls false [.rng 'Г' 'Г', .rng 'г' 'г']], .seqs [.cls false [.rng 'З' 'З', .rng 'з' 'з'], .cls false [.rng 'А' 'А', .rng 'а' 'а'], .lit [' '], .number, .lit [' '], .cls false [.rng 'Д' 'Д', .rng 'д' 'д', .rng 'ᲁ' 'ᲁ']], .seqs [.cls false [.rng 'З' 'З', .rng 'з' 'з'], .cls false [.rng 'А' 'А', .rng 'а' 'а'], .lit [' '], .number, .lit [' '], .cls false [.rng 'М' 'М', .rng 'м' 'м']], .seqs [.cls false [.rng 'З' 'З', .rng 'з' 'з'], .cls false [.rng 'А' 'А', .rng 'а' 'а'], .lit [' '], .number, .lit [' '], .cls false [.rng 'Н' 'Н', .rng 'н' 'н']], .seqs [.cls false [.rng 'З' 'З', .rng 'з' 'з'], .cls false [.rng 'А' 'А', .rng 'а' 'а'], .lit [' '], .number, .lit [' '], .cls false [.rng 'С' 'С', .rng 'с' 'с', .rng 'ᲃ' 'ᲃ']], .seqs [.cls false [.rng 'З' 'З', .rng 'з' 'з'], .cls false [.rng 'А' 'А', .rng 'а' 'а'], .lit [' '], .number, .lit [' '], .cls false [.rng 'Ч' 'Ч', .rng 'ч' 'ч']]]), .eos]),
  knownWords :=
   [['с', 'л', 'е', 'д', 'е', 'ћ', 'е', 'г', ' ', 'м', 'е', 'с', 'е', 'ц', 'а'], ['п', 'р', 'о', 'ш', 'л', 'о', 'г', ' ', 'м', 'е', 'с', 'е', 'ц', 'а'], ['с', 'л', 'е', 'д', 'е', 'ћ', 'е', ' ', 'г', 'о', 'д', 'и', 'н', 'е'], ['с', 'л', 'е', 'д', 'е', 'ћ', 'е', ' ', 'н', 'е', 'д', 'е', 'љ', 'е'], ['п', 'р', 'о', 'ш', 'л', 'е', ' ', 'г', 'о', 'д', 'и', 'н', 'е'], ['п', 'р', 'о', 'ш', 'л', 'е', ' ', 'н', 'е', 'д', 'е', 'љ', 'е'], ['о', 'в', 'о', 'г', ' ', 'м', 'е', 'с', 'е', 'ц', 'а'], ['о', 'в', 'о', 'г', ' ', 'м', 'и', 'н', 'у', 'т', 'а'], ['о', 'в', 'е', ' ', 'г', 'о', 'д', 'и', 'н', 'е'], ['о', 'в', 'е', ' ', 'н', 'е', 'д', 'е', 'љ', 'е'], ['о', 'в', 'о', 'г', ' ', 'с', 'а', 'т', 'а'], ['п', 'о', 'н', 'е', 'д', 'е', 'љ', 'а', 'к'], ['п', 'р', 'е', ' ', 'п', 'о', 'д', 'н', 'е'], ['с', 'е', 'п', 'т', 'е', 'м', 'б', 'а', 'р'], ['д', 'е', 'ц', 'е', 'м', 'б', 'а', 'р'], ['н', 'о', 'в', 'е', 'м', 'б', 'а', 'р'], ['п', 'о', ' ', 'п', 'о', 'д', 'н', 'е'], ['ч', 'е', 'т', 'в', 'р', 'т', 'а', 'к'], ['о', 'к', 'т', 'о', 'б', 'а', 'р'], ['ф', 'е', 'б', 'р', 'у', 'а', 'р'], ['а', 'в', 'г', 'у', 'с', 'т'], ['г', 'о', 'д', 'и', 'н', 'а'], ['н', 'е', 'д', 'е', 'љ', 'а'], ['с', 'е', 'к', 'у', 'н', 'д'], ['с', 'у', 'б', 'о', 'т', 'а'], ['у', 'т', 'о', 'р', 'а', 'к'], ['ј', 'а', 'н', 'у', 'а', 'р'], ['а', 'п', 'р', 'и', 'л'], ['д', 'а', 'н', 'а', 'с'], ['м', 'е', 'с', 'е', 'ц'], ['м', 'и', 'н', 'у', 'т'], ['п', 'е', 'т', 'а', 'к'], ['с', 'р', 'е', 'д', 'а'], ['с', 'у', 'т', 'р', 'а'], ['м', 'а', 'р', 'т'], ['с', 'а', 'д', 'а'], ['ј', 'у', 'ч', 'е'], ['g', 'm', 't'], ['u', 't', 'c'], ['а', 'в', 'г'], ['а', 'п', 'р'], ['г', 'о', 'д'], ['д', 'а', 'н'], ['д', 'е', 'ц'], ['м', 'а', 'р'], ['м', 'а', 'ј'], ['м', 'е', 'с'], ['м', 'и', 'н'], ['н', 'е', 'д'], ['н', 'о', 'в'], ['о', 'к', 'т'], ['п', 'е', 'т'], ['п', 'о', 'н'], ['с', 'а', 'т'], ['с', 'е', 'к'], ['с', 'е', 'п'], ['с', 'р', 'е'], ['с', 'у', 'б'], ['у', 'т', 'о'], ['ф', 'е', 'б'], ['ч', 'е', 'т'], ['ј', 'а', 'н'], ['ј', 'у', 'л'], ['ј', 'у', 'н'], ['a', 'm'], ['p', 'm'], [' '], ['\''], ['+'], [','], ['-'], ['.'], ['/'], [':'], [';'], ['@'], ['['], [']'], ['z'], ['|'], ['г'], ['д'], ['м'], ['н'], ['с'], ['ч']] }

/-- internal/data/sv.go: `sv_Locale`. -/
def svLang : LangData := { svDict with
  simplifications :=
   [(.seqs [.grp 1 (.alts [.bos, .noWord]), .lit ['e', 'n'], .grp 2 (.alts [.eos, .noWord])], [.ref 1, .lit ['1'], .ref 2]),
    (.seqs [.grp 1 (.alts [.bos, .noWord]), .lit ['t', 'v', 'a'], .grp 2 (.alts [.eos, .noWord])], [.ref 1, .lit ['2'], .ref 2])],
  relativeRegexes :=
   [(.seqs [.lit ['f', 'o', 'r', ' '], .grp 1 (.number), .lit [' ', 's', 'e', 'k', 'u', 'n', 'd', 'e', 'r', ' ', 's', 'e', 'd', 'a', 'n']], [.ref 1, .lit [' ', 's', 'e', 'c', 'o', 'n', 'd', ' ', 'a', 'g', 'o']]),
    (.seqs [.lit ['f', 'o', 'r', ' '], .grp 1 (.number), .lit [' ', 'm', 'a', 'n', 'a', 'd', 'e', 'r', ' ', 's', 'e', 'd', 'a', 'n']], [.ref 1, .lit [' ', 'm', 'o', 'n', 't', 'h', ' ', 'a', 'g', 'o']]),
    (.seqs [.lit ['f', 'o', 'r', ' '], .grp 1 (.number), .lit [' ', 'm', 'i', 'n', 'u', 't', 'e', 'r', ' ', 's', 'e', 'd', 'a', 'n']], [.ref 1, .lit [' ', 'm', 'i', 'n', 'u', 't', 'e', ' ', 'a', 'g', 'o']]),
    (.seqs [.lit ['f', 'o', 'r', ' '], .grp 1 (.number), .lit [' ', 's', 'e', 'k', 'u', 'n', 'd', ' ', 's', 'e', 'd', 'a', 'n']], [.ref 1, .lit [' ', 's', 'e', 'c', 'o', 'n', 'd', ' ', 'a', 'g', 'o']]),
    (.seqs [.lit ['f', 'o', 'r', ' '], .grp 1 (.number), .lit [' ', 't', 'i', 'm', 'm', 'a', 'r', ' ', 's', 'e', 'd', 'a', 'n']], [.ref 1, .lit [' ', 'h', 'o', 'u', 'r', ' ', 'a', 'g', 'o']]),
    (.seqs [.lit ['f', 'o', 'r', ' '], .grp 1 (.number), .lit [' ', 'v', 'e', 'c', 'k', 'o', 'r', ' ', 's', 'e', 'd', 'a', 'n']], [.ref 1, .lit [' ', 'w', 'e', 'e', 'k', ' ', 'a', 'g', 'o']]),
    (.seqs [.lit ['f', 'o', 'r', ' '], .grp 1 (.number), .lit [' ', 'd', 'a', 'g', 'a', 'r', ' ', 's', 'e', 'd', 'a', 'n']], [.ref 1, .lit [' ', 'd', 'a', 'y', ' ', 'a', 'g', 'o']]),
    (.seqs [.lit ['f', 'o', 'r', ' '], .grp 1 (.number), .lit [' ', 'm', 'a', 'n', 'a', 'd', ' ', 's', 'e', 'd', 'a', 'n']], [.ref 1, .lit [' ', 'm', 'o', 'n', 't', 'h', ' ', 'a', 'g', 'o']]),
    (.seqs [.lit ['f', 'o', 'r', ' '], .grp 1 (.number), .lit [' ', 'm', 'i', 'n', 'u', 't', ' ', 's', 'e', 'd', 'a', 'n']], [.ref 1, .lit [' ', 'm', 'i', 'n', 'u', 't', 'e', ' ', 'a', 'g', 'o']]),
    (.seqs [.lit ['f', 'o', 'r', ' '], .grp 1 (.number), .lit [' ', 't', 'i', 'm', 'm', 'e', ' ', 's', 'e', 'd', 'a', 'n']], [.ref 1, .lit [' ', 'h', 'o', 'u', 'r', ' ', 'a', 'g', 'o']]),
    (.seqs [.lit ['f', 'o', 'r', ' '], .grp 1 (.number), .lit [' ', 'v', 'e', 'c', 'k', 'a', ' ', 's', 'e', 'd', 'a', 'n']], [.ref 1, .lit [' ', 'w', 'e', 'e', 'k', ' ', 'a', 'g', 'o']]),
    (.seqs [.lit ['f', 'o', 'r', ' '], .grp 1 (.number), .lit [' ', 'd', 'a', 'g', ' ', 's', 'e', 'd', 'a', 'n']], [.ref 1, .lit [' ', 'd', 'a', 'y', ' ', 'a', 'g', 'o']]),
    (.seqs [.lit ['f', 'o', 'r', ' '], .grp 1 (.number), .lit [' ', 'm', 'a', 'n', ' ', 's', 'e', 'd', 'a', 'n']], [.ref 1, .lit [' ', 'm', 'o', 'n', 't', 'h', ' ', 'a', 'g', 'o']]),
    (.seqs [.lit ['f', 'o', 'r', ' '], .grp 1 (.number), .lit [' ', 'm', 'i', 'n', ' ', 's', 'e', 'd', 'a', 'n']], [.ref 1, .lit [' ', 'm', 'i', 'n', 'u', 't', 'e', ' ', 'a', 'g', 'o']]),
    (.seqs [.lit ['f', 'o', 'r', ' '], .grp 1 (.number), .lit [' ', 's', 'e', 'k', ' ', 's', 'e', 'd', 'a', 'n']], [.ref 1, .lit [' ', 's', 'e', 'c', 'o', 'n', 'd', ' ', 'a', 'g', 'o']]),
    (.seqs [.lit ['f', 'o', 'r', ' '], .grp 1 (.number), .lit [' ', 't', 'i', 'm', ' ', 's', 'e', 'd', 'a', 'n']], [.ref 1, .lit [' ', 'h', 'o', 'u', 'r', ' ', 'a', 'g', 'o']]),
    (.seqs [.lit ['f', 'o', 'r', ' '], .grp 1 (.number), .lit [' ', 'a', 'r', ' ', 's', 'e', 'd', 'a', 'n']], [.ref 1, .lit [' ', 'y', 'e', 'a', 'r', ' ', 'a', 'g', 'o']]),
    (.seqs [.lit ['f', 'o', 'r', ' '], .grp 1 (.number), .lit [' ', 'd', ' ', 's', 'e', 'd', 'a', 'n']], [.ref 1, .lit [' ', 'd', 'a', 'y', ' ', 'a', 'g', 'o']]),
    (.seqs [.lit ['f', 'o', 'r', ' '], .grp 1 (.number), .lit [' ', 'v', ' ', 's', 'e', 'd', 'a', 'n']], [.ref 1, .lit [' ', 'w', 'e', 'e', 'k', ' ', 'a', 'g', 'o']]),
    (.seqs [.lit ['o', 'm', ' '], .grp 1 (.number), .lit [' ', 's', 'e', 'k', 'u', 'n', 'd', 'e', 'r']], [.lit ['i', 'n', ' '], .ref 1, .lit [' ', 's', 'e', 'c', 'o', 'n', 'd']]),
    (.seqs [.lit ['o', 'm', ' '], .grp 1 (.number), .lit [' ', 'm', 'a', 'n', 'a', 'd', 'e', 'r']], [.lit ['i', 'n', ' '], .ref 1, .lit [' ', 'm', 'o', 'n', 't', 'h']]),
    (.seqs [.lit ['o', 'm', ' '], .grp 1 (.number), .lit [' ', 'm', 'i', 'n', 'u', 't', 'e', 'r']], [.lit ['i', 'n', ' '], .ref 1, .lit [' ', 'm', 'i', 'n', 'u', 't', 'e']]),
    (.seqs [.lit ['o', 'm', ' '], .grp 1 (.number), .lit [' ', 's', 'e', 'k', 'u', 'n', 'd']], [.lit ['i', 'n', ' '], .ref 1, .lit [' ', 's', 'e', 'c', 'o', 'n', 'd']]),
    (.seqs [.lit ['o', 'm', ' '], .grp 1 (.number), .lit [' ', 't', 'i', 'm', 'm', 'a', 'r']], [.lit ['i', 'n', ' '], .ref 1, .lit [' ', 'h', 'o', 'u', 'r']]),
    (.seqs [.lit ['o', 'm', ' '], .grp 1 (.number), .lit [' ', 'v', 'e', 'c', 'k', 'o', 'r']], [.lit ['i', 'n', ' '], .ref 1, .lit [' ', 'w', 'e', 'e', 'k']]),
    (.seqs [.lit ['o', 'm', ' '], .grp 1 (.number), .lit [' ', 'd', 'a', 'g', 'a', 'r']], [.lit ['i', 'n', ' '], .ref 1, .lit [' ', 'd', 'a', 'y']]),
    (.seqs [.lit ['o', 'm', ' '], .grp 1 (.number), .lit [' ', 'm', 'a', 'n', 'a', 'd']], [.lit ['i', 'n', ' '], .ref 1, .lit [' ', 'm', 'o', 'n', 't', 'h']]),
    (.seqs [.lit ['o', 'm', ' '], .grp 1 (.number), .lit [' ', 'm', 'i', 'n', 'u', 't']], [.lit ['i', 'n', ' '], .ref 1, .lit [' ', 'm', 'i', 'n', 'u', 't', 'e']]),
    (.seqs [.lit ['o', 'm', ' '], .grp 1 (.number), .lit [' ', 't', 'i', 'm', 'm', 'e']], [.lit ['i', 'n', ' '], .ref 1, .lit [' ', 'h', 'o', 'u', 'r']]),
    (.seqs [.lit ['o', 'm', ' '], .grp 1 (.number), .lit [' ', 'v', 'e', 'c', 'k', 'a']], [.lit ['i', 'n', ' '], .ref 1, .lit [' ', 'w', 'e', 'e', 'k']]),
    (.seqs [.lit ['o', 'm', ' '], .grp 1 (.number), .lit [' ', 'd', 'a', 'g']], [.lit ['i', 'n', ' '], .ref 1, .lit [' ', 'd', 'a', 'y']]),
    (.seqs [.lit ['o', 'm', ' '], .grp 1 (.number), .lit [' ', 'm', 'a', 'n']], [.lit ['i', 'n', ' '], .ref 1, .lit [' ', 'm', 'o', 'n', 't', 'h']]),
    (.seqs [.lit ['o', 'm', ' '], .grp 1 (.number), .lit [' ', 'm', 'i', 'n']], [.lit ['i', 'n', ' '], .ref 1, .lit [' ', 'm', 'i', 'n', 'u', 't', 'e']]),
    (.seqs [.lit ['o', 'm', ' '], .grp 1 (.number), .lit [' ', 's', 'e', 'k']], [.lit ['i', 'n', ' '], .ref 1, .lit [' ', 's', 'e', 'c', 'o', 'n', 'd']]),
    (.seqs [.lit ['o', 'm', ' '], .grp 1 (.number), .lit [' ', 't', 'i', 'm']], [.lit ['i', 'n', ' '], .ref 1, .lit [' ', 'h', 'o', 'u', 'r']]),
    (.seqs [.lit ['o', 'm', ' '], .grp 1 (.number), .lit [' ', 'a', 'r']], [.lit ['i', 'n', ' '], .ref 1, .lit [' ', 'y', 'e', 'a', 'r']]),
    (.seqs [.lit ['o', 'm', ' '], .grp 1 (.number), .lit [' ', 'd']], [.lit ['i', 'n', ' '], .ref 1, .lit [' ', 'd', 'a', 'y']]),
    (.seqs [.lit ['o', 'm', ' '], .grp 1 (.number), .lit [' ', 'v']], [.lit ['i', 'n', ' '], .ref 1, .lit [' ', 'w', 'e', 'e', 'k']]),
    (.seqs [.lit ['−'], .grp 1 (.number), .lit [' ', 'm', 'a', 'n']], [.ref 1, .lit [' ', 'm', 'o', 'n', 't', 'h', ' ', 'a', 'g', 'o']]),
    (.seqs [.lit ['−'], .grp 1 (.number), .lit [' ', 'm', 'i', 'n']], [.ref 1, .lit [' ', 'm', 'i', 'n', 'u', 't', 'e', ' ', 'a', 'g', 'o']]),
    (.seqs [.lit ['−'], .grp 1 (.number), .lit [' ', 'a', 'r']], [.ref 1, .lit [' ', 'y', 'e', 'a', 'r', ' ', 'a', 'g', 'o']]),
    (.seqs [.lit ['−'], .grp 1 (.number), .lit [' ', 'd']], [.ref 1, .lit [' ', 'd', 'a', 'y', ' ', 'a', 'g', 'o']]),
    (.seqs [.lit ['−'], .grp 1 (.number), .lit [' ', 'h']], [.ref 1, .lit [' ', 'h', 'o', 'u', 'r', ' ', 'a', 'g', 'o']]),
    (.seqs [.lit ['−'], .grp 1 (.number), .lit [' ', 's']], [.ref 1, .lit [' ', 's', 'e', 'c', 'o', 'n', 'd', ' ', 'a', 'g', 'o']]),
    (.seqs [.lit ['−'], .grp 1 (.number), .lit [' ', 'v']], [.ref 1, .lit [' ', 'w', 'e', 'e', 'k', ' ', 'a', 'g', 'o']])],
  rxCombined := some (.seqs [.grp 1 (.alts [.bos, .cls true [.letter, .mark, .digit], .lit ['_']]), .grp 2 (.alts [.seqs [.lit ['f', 'o', 'r', ' '], .number, .lit [' ', 's', 'e', 'k', 'u', 'n', 'd', 'e', 'r', ' ', 's', 'e', 'd', 'a', 'n']], .seqs [.lit ['f', 'o', 'r', ' '], .number, .lit [' ', 'm', 'a', 'n', 'a', 'd', 'e', 'r', ' ', 's', 'e', 'd', 'a', 'n']], .seqs [.lit ['f', 'o', 'r', ' '], .number, .lit [' ', 'm', 'i', 'n', 'u', 't', 'e', 'r', ' ', 's', 'e', 'd', 'a', 'n']], .seqs [.lit ['f', 'o', 'r', ' '], .number, .lit [' ', 's', 'e', 'k', 'u', 'n', 'd', ' ', 's', 'e', 'd', 'a', 'n']], .seqs [.lit ['f', 'o', 'r', ' '], .number, .lit [' ', 't', 'i', 'm', 'm', 'a', 'r', ' ', 's', 'e', 'd', 'a', 'n']], .seqs [.lit ['f', 'o', 'r', ' '], .number, .lit [' ', 'v', 'e', 'c', 'k', 'o', 'r', ' ', 's', 'e', 'd', 'a', 'n']], .seqs [.lit ['f', 'o', 'r', ' '], .number, .lit [' ', 'd', 'a', 'g', 'a', 'r', ' ', 's', 'e', 'd', 'a', 'n']], .seqs [.lit ['f', 'o', 'r', ' '], .number, .lit [' ', 'm', 'a', 'n', 'a', 'd', ' ', 's', 'e', 'd', 'a', 'n']], .seqs [.lit ['f', 'o', 'r', ' '], .number, .lit [' ', 'm', 'i', 'n', 'u', 't', ' ', 's', 'e', 'd', 'a', 'n']], .seqs [.lit ['f', 'o', 'r', ' '], .number, .lit [' ', 't', 'i', 'm', 'm', 'e', ' ', 's', 'e', 'd', 'a', 'n']], .seqs [.lit ['f', 'o', 'r', ' '], .number, .lit [' ', 'v', 'e', 'c', 'k', 'a', ' ', 's', 'e', 'd', 'a', 'n']], .seqs [.lit ['f', 'o', 'r', ' '], .number, .lit [' ', 'd', 'a', 'g', ' ', 's', 'e', 'd', 'a', 'n']], .seqs [.lit ['f', 'o', 'r', ' '], .number, .lit [' ', 'm', 'a', 'n', ' ', 's', 'e', 'd', 'a', 'n']], .seqs [.lit ['f', 'o', 'r', ' '], .number, .lit [' ', 'm', 'i', 'n', ' ', 's', 'e', 'd', 'a', 'n']], .seqs [.lit ['f', 'o', 'r', ' '], .number, .lit [' ', 's', 'e', 'k', ' ', 's', 'e', 'd', 'a', 'n']], .seqs [.lit ['f', 'o', 'r', ' '], .number, .lit [' ', 't', 'i', 'm', ' ', 's', 'e', 'd', 'a', 'n']], .seqs [.lit ['f', 'o', 'r', ' '], .number, .lit [' ', 'a', 'r', ' ', 's', 'e', 'd', 'a', 'n']], .seqs [.lit ['f', 'o', 'r', ' '], .number, .lit [' ', 'd', ' ', 's', 'e', 'd', 'a', 'n']], .seqs [.lit ['f', 'o', 'r', ' '], .number, .lit [' ', 'v', ' ', 's', 'e', 'd', 'a', 'n']], .seqs [.lit ['o', 'm', ' '], .number, .lit [' ', 's', 'e', 'k', 'u', 'n', 'd', 'e', 'r']], .seqs [.lit ['o', 'm', ' '], .number, .lit [' ', 'm', 'a', 'n', 'a', 'd', 'e', 'r']], .seqs [.lit ['o', 'm', ' '], .number, .lit [' ', 'm', 'i', 'n', 'u', 't', 'e', 'r']], .seqs [.lit ['o', 'm', ' '], .number, .lit [' ', 's', 'e', 'k', 'u', 'n', 'd']], .seqs [.lit ['o', 'm', ' '], .number, .lit [' ', 't', 'i', 'm', 'm', 'a', 'r']], .seqs [.lit ['o', 'm', ' '], .number, .lit [' ', 'v', 'e', 'c', 'k', 'o', 'r']], .seqs [.lit ['o', 'm', ' '], .number, .lit [' ', 'd', 'a', 'g', 'a', 'r']], .seqs [.lit ['o', 'm', ' '], .number, .lit [' ', 'm', 'a', 'n', 'a', 'd']], .seqs [.lit ['o', 'm', ' '], .number, .lit [' ', 'm', 'i', 'n', 'u', 't']], .seqs [.lit ['o', 'm', ' '], .number, .lit [' ', 't', 'i', 'm', 'm', 'e']], .seqs [.lit ['o', 'm', ' '], .number, .lit [' ', 'v', 'e', 'c', 'k', 'a']], .seqs [.lit ['o', 'm', ' '], .number, .lit [' ', 'd', 'a', 'g']], .seqs [.lit ['o', 'm', ' '], .number, .lit [' ', 'm', 'a', 'n']], .seqs [.lit ['o', 'm', ' '], .number, .lit [' ', 'm', 'i', 'n']], .seqs [.lit ['o', 'm', ' '], .number, .lit [' ', 's', 'e', 'k']], .seqs [.lit ['o', 'm', ' '], .number, .lit [' ', 't', 'i', 'm']], .seqs [.lit ['o', 'm', ' '], .number, .lit [' ', 'a', 'r']], .seqs [.lit ['o', 'm', ' '], .number, .lit [' ', 'd']], .seqs [.lit ['o', 'm', ' '], .number, .lit [' ', 'v']], .seqs [.lit ['−'], .number, .lit [' ', 'm', 'a', 'n']], .seqs [.lit ['−'], .number, .lit [' ', 'm', 'i', 'n']], .seqs [.lit ['−'], .number, .lit [' ', 'a', 'r']], .seqs [.lit ['−'], .number, .lit [' ', 'd']], .seqs [.lit ['−'], .number, .lit [' ', 'h']], .seqs [.lit ['−'], .number, .lit [' ', 's']], .seqs [.lit ['−'], .number, .lit [' ', 'v']]]), .grp 3 (.alts [.eos, .cls true [.letter, .mark, .digit], .lit ['_']])], 3),
  rxExact := some (.seqs [.bos, .grp 1 (.alts [.seqs [.lit ['f', 'o', 'r', ' '], .number, .lit [' ', 's', 'e', 'k', 'u', 'n', 'd', 'e', 'r', ' ', 's', 'e', 'd', 'a', 'n']], .seqs [.lit ['f', 'o', 'r', ' '], .number, .lit [' ', 'm', 'a', 'n', 'a', 'd', 'e', 'r', ' ', 's', 'e', 'd', 'a', 'n']], .seqs [.lit ['f', 'o', 'r', ' '], .number, .lit [' ', 'm', 'i', 'n', 'u', 't', 'e', 'r', ' ', 's', 'e', 'd', 'a', 'n']], .seqs [.lit ['f', 'o', 'r', ' '], .number, .lit [' ', 's', 'e', 'k', 'u', 'n', 'd', ' ', 's', 'e', 'd', 'a', 'n']], .seqs [.lit ['f', 'o', 'r', ' '], .number, .lit [' ', 't', 'i', 'm', 'm', 'a', 'r', ' ', 's', 'e', 'd', 'a', 'n']], .seqs [.lit ['f', 'o', 'r', ' '], .number, .lit [' ', 'v', 'e', 'c', 'k', 'o', 'r', ' ', 's', 'e', 'd', 'a', 'n']], .seqs [.lit ['f', 'o', 'r', ' '], .number, .lit [' ', 'd', 'a', 'g', 'a', 'r', ' ', 's', 'e', 'd', 'a', 'n']], .seqs [.lit ['f', 'o', 'r', ' '], .number, .lit [' ', 'm', 'a', 'n', 'a', 'd', ' ', 's', 'e', 'd', 'a', 'n']], .seqs [.lit ['f', 'o', 'r', ' '], .number, .lit [' ', 'm', 'i', 'n', 'u', 't', ' ', 's', 'e', 'd', 'a', 'n']], .seqs [.lit ['f', 'o', 'r', ' '], .number, .lit [' ', 't', 'i', 'm', 'm', 'e', ' ', 's', 'e', 'd', 'a', 'n']], .seqs [.lit ['f', 'o', 'r', ' '], .number, .lit [' ', 'v', 'e', 'c', 'k', 'a', ' ', 's', 'e', 'd', 'a', 'n']], .seqs [.lit ['f', 'o', 'r', ' '], .number, .lit [' ', 'd', 'a', 'g', ' ', 's', 'e', 'd', 'a', 'n']], .seqs [.lit ['f', 'o', 'r', ' '], .number, .lit [' ', 'm', 'a', 'n', ' ', 's', 'e', 'd', 'a', 'n']], .seqs [.lit ['f', 'o', 'r', ' '], .number, .lit [' ', 'm', 'i', 'n', ' ', 's', 'e', 'd', 'a', 'n']], .seqs [.lit ['f', 'o', 'r', ' '], .number, .lit [' ', 's', 'e', 'k', ' ', 's', 'e', 'd', 'a', 'n']], .seqs [.lit ['f', 'o', 'r', ' '], .number, .lit [' ', 't', 'i', 'm', ' ', 's', 'e', 'd', 'a', 'n']], .seqs [.lit ['f', 'o', 'r', ' '], .number, .lit [' ', 'a', 'r', ' ', 's', 'e', 'd', 'a', 'n']], .seqs [.lit ['f', 'o', 'r', ' '], .number, .lit [' ', 'd', ' ', 's', 'e', 'd', 'a', 'n']], .seqs [.lit ['f', 'o', 'r', ' '], .number, .lit [' ', 'v', ' ', 's', 'e', 'd', 'a', 'n']], .seqs [.lit ['o', 'm', ' '], .number, .lit [' ', 's', 'e', 'k', 'u', 'n', 'd', 'e', 'r']], .seqs [.lit ['o', 'm', ' '], .number, .lit [' ', 'm', 'a', 'n', 'a', 'd', 'e', 'r']], .seqs [.lit ['o', 'm', ' '], .number, .lit [' ', 'm', 'i', 'n', 'u', 't', 'e', 'r']], .seqs [.lit ['o', 'm', ' '], .number, .lit [' ', 's', 'e', 'k', 'u', 'n', 'd']], .seqs [.lit ['o', 'm', ' '], .number, .lit [' ', 't', 'i', 'm', 'm', 'a', 'r']], .seqs [.lit ['o', 'm', ' '], .number, .lit [' ', 'v', 'e', 'c', 'k', 'o', 'r']], .seqs [.lit ['o', 'm', ' '], .number, .lit [' ', 'd', 'a', 'g', 'a', 'r']], .seqs [.lit ['o', 'm', ' '], .number, .lit [' ', 'm', 'a', 'n', 'a', 'd']], .seqs [.lit ['o', 'm', ' '], .number, .lit [' ', 'm', 'i', 'n', 'u', 't']], .seqs [.lit ['o', 'm', ' '], .number, .lit [' ', 't', 'i', 'm', 'm', 'e']], .seqs [.lit ['o', 'm', ' '], .number, .lit [' ', 'v', 'e', 'c', 'k', 'a']], .seqs [.lit ['o', 'm', ' '], .number, .lit [' ', 'd', 'a', 'g']], .seqs [.lit ['o', 'm', ' '], .number, .lit [' ', 'm', 'a', 'n']], .seqs [.lit ['o', 'm', ' '], .number, .lit [' ', 'm', 'i', 'n']], .seqs [.lit ['o', 'm', ' '], .number, .lit [' ', 's', 'e', 'k']], .seqs [.lit ['o', 'm', ' '], .number, .lit [' ', 't', 'i', 'm']], .seqs [.lit ['o', 'm', ' '], .number, .lit [' ', 'a', 'r']], .seqs [.lit ['o', 'm', ' '], .number, .lit [' ', 'd']], .seqs [.lit ['o', 'm', ' '], .number, .lit [' ', 'v']], .seqs [.lit ['−'], .number, .lit [' ', 'm', 'a', 'n']], .seqs [.lit ['−'], .number, .lit [' ', 'm', 'i', 'n']], .seqs [.lit ['−'], .number, .lit [' ', 'a', 'r']], .seqs [.lit ['−'], .number, .lit [' ', 'd']], .seqs [.lit ['−'], .number, .lit [' ', 'h']], .seqs [.lit ['−'], .number, .lit [' ', 's']], .seqs [.lit ['−'], .number, .lit [' ', 'v']]]), .eos]),
  knownWords :=
   [['f', 'o', 'r', 'r', 'a', ' ', 'm', 'a', 'n', 'a', 'd', 'e', 'n'], ['f', 'o', 'r', 'r', 'a', ' ', 'v', 'e', 'c', 'k', 'a', 'n'], ['d', 'e', 'n', 'n', 'a', ' ', 'm', 'a', 'n', 'a', 'd'], ['d', 'e', 'n', 'n', 'a', ' ', 'm', 'i', 'n', 'u', 't'], ['d', 'e', 'n', 'n', 'a', ' ', 't', 'i', 'm', 'm', 'e'], ['d', 'e', 'n', 'n', 'a', ' ', 'v', 'e', 'c', 'k', 'a'], ['e', 'f', 't', 'e', 'r', 'm', 'i', 'd', 'd', 'a', 'g'], ['n', 'a', 's', 't', 'a', ' ', 'm', 'a', 'n', 'a', 'd'], ['n', 'a', 's', 't', 'a', ' ', 'v', 'e', 'c', 'k', 'a'], ['f', 'o', 'r', 'r', 'a', ' ', 'a', 'r', 'e', 't'], ['d', 'e', 'n', 'n', 'a', ' ', 'm', 'a', 'n'], ['f', 'o', 'r', 'm', 'i', 'd', 'd', 'a', 'g'], ['f', 'o', 'r', 'r', 'a', ' ', 'm', 'a', 'n'], ['n', 'a', 's', 't', 'a', ' ', 'm', 'a', 'n'], ['s', 'e', 'p', 't', 'e', 'm', 'b', 'e', 'r'], ['d', 'e', 'c', 'e', 'm', 'b', 'e', 'r'], ['f', 'e', 'b', 'r', 'u', 'a', 'r', 'i'], ['i', ' ', 'm', 'o', 'r', 'g', 'o', 'n'], ['n', 'a', 's', 't', 'a', ' ', 'a', 'r'], ['n', 'o', 'v', 'e', 'm', 'b', 'e', 'r'], ['s', 'e', 'k', 'u', 'n', 'd', 'e', 'r'], ['a', 'u', 'g', 'u', 's', 't', 'i'], ['d', 'e', 'n', 'n', 'a', ' ', 'v'], ['f', 'o', 'r', 'r', 'a', ' ', 'v'], ['f', 'o', 'r', 'r', 'g', 'a', 'r'], ['f', 'r', 'a', 'n', ' ', 'n', 'u'], ['i', 'm', 'o', 'r', 'g', 'o', 'n'], ['j', 'a', 'n', 'u', 'a', 'r', 'i'], ['m', 'a', 'n', 'a', 'd', 'e', 'n'], ['m', 'a', 'n', 'a', 'd', 'e', 'r'], ['m', 'i', 'n', 'u', 't', 'e', 'r'], ['n', 'a', 's', 't', 'a', ' ', 'v'], ['o', 'k', 't', 'o', 'b', 'e', 'r'], ['t', 'o', 'r', 's', 'd', 'a', 'g'], ['f', 'r', 'e', 'd', 'a', 'g'], ['i', ' ', 'f', 'j', 'o', 'l'], ['l', 'o', 'r', 'd', 'a', 'g'], ['m', 'a', 'n', 'd', 'a', 'g'], ['o', 'n', 's', 'd', 'a', 'g'], ['s', 'e', 'k', 'u', 'n', 'd'], ['s', 'o', 'n', 'd', 'a', 'g'], ['t', 'i', 'm', 'm', 'a', 'r'], ['t', 'i', 's', 'd', 'a', 'g'], ['v', 'e', 'c', 'k', 'o', 'r'], ['a', 'p', 'r', 'i', 'l'], ['d', 'a', 'g', 'a', 'r'], ['i', ' ', 'd', 'a', 'g'], ['i', ' ', 'g', 'a', 'r'], ['m', 'a', 'n', 'a', 'd'], ['m', 'i', 'n', 'u', 't'], ['s', 'e', 'd', 'a', 'n'], ['t', 'i', 'm', 'm', 'e'], ['t', 'o', 'r', 's', 'd'], ['v', 'e', 'c', 'k', 'a'], ['a', 'r', 'e', 't'], ['f', 'r', 'e', 'd'], ['i', ' ', 'a', 'r'], ['i', 'd', 'a', 'g'], ['i', 'g', 'a', 'r'], ['j', 'u', 'l', 'i'], ['j', 'u', 'n', 'i'], ['l', 'o', 'r', 'd'], ['m', 'a', 'n', 'd'], ['m', 'a', 'r', 's'], ['o', 'n', 's', 'd'], ['s', 'e', 'p', 't'], ['s', 'o', 'n', 'd'], ['t', 'i', 's', 'd'], ['t', 'o', 'r', 's'], ['a', 'p', 'r'], ['a', 'u', 'g'], ['d', 'a', 'g'], ['d', 'e', 'c'], ['d', 'e', 'n'], ['f', 'e', 'b'], ['f', 'r', 'e'], ['g', 'm', 't'], ['j', 'a', 'n'], ['j', 'u', 'l'], ['j', 'u', 'n'], ['l', 'o', 'r'], ['m', 'a', 'j'], ['m', 'a', 'n'], ['m', 'i', 'n'], ['n', 'o', 'v'], ['o', 'k', 't'], ['o', 'n', 's'], ['s', 'e', 'k'], ['s', 'e', 'p'], ['s', 'o', 'n'], ['t', 'i', 'm'], ['t', 'i', 's'], ['u', 't', 'c'], ['a', 'm'], ['a', 'r'], ['e', 'm'], ['f', 'm'], ['n', 'u'], ['o', 'm'], ['p', 'a'], ['p', 'm'], [' '], ['\''], ['+'], [','], ['-'], ['.'], ['/'], [':'], [';'], ['@'], ['['], [']'], ['h'], ['m'], ['s'], ['t'], ['v'], ['z'], ['|']] }

/-- internal/data/sv.go: `sv_AX_Locale`. -/
def sv_AXLang : LangData := sv_AXDict

/-- internal/data/sv.go: `sv_FI_Locale`. -/
def sv_FILang : LangData := sv_FIDict

/-- internal/data/sw.go: `sw_Locale`. -/
def swLang : LangData := { swDict with
  relativeRegexes :=
   [(.seqs [.lit ['s', 'e', 'k', 'u', 'n', 'd', 'e', ' '], .grp 1 (.number), .lit [' ', 'z', 'i', 'l', 'i', 'z', 'o', 'p', 'i', 't', 'a']], [.ref 1, .lit [' ', 's', 'e', 'c', 'o', 'n', 'd', ' ', 'a', 'g', 'o']]),
    (.seqs [.lit ['d', 'a', 'k', 'i', 'k', 'a', ' '], .grp 1 (.number), .lit [' ', 'z', 'i', 'l', 'i', 'z', 'o', 'p', 'i', 't', 'a']], [.ref 1, .lit [' ', 'm', 'i', 'n', 'u', 't', 'e', ' ', 'a', 'g', 'o']]),
    (.seqs [.lit ['s', 'e', 'k', 'u', 'n', 'd', 'e', ' '], .grp 1 (.number), .lit [' ', 'i', 'l', 'i', 'y', 'o', 'p', 'i', 't', 'a']], [.ref 1, .lit [' ', 's', 'e', 'c', 'o', 'n', 'd', ' ', 'a', 'g', 'o']]),
    (.seqs [.lit ['b', 'a', 'a', 'd', 'a', ' ', 'y', 'a', ' ', 's', 'e', 'k', 'u', 'n', 'd', 'e', ' '], .grp 1 (.number)], [.lit ['i', 'n', ' '], .ref 1, .lit [' ', 's', 'e', 'c', 'o', 'n', 'd']]),
    (.seqs [.lit ['d', 'a', 'k', 'i', 'k', 'a', ' '], .grp 1 (.number), .lit [' ', 'i', 'l', 'i', 'y', 'o', 'p', 'i', 't', 'a']], [.ref 1, .lit [' ', 'm', 'i', 'n', 'u', 't', 'e', ' ', 'a', 'g', 'o']]),
    (.seqs [.lit ['b', 'a', 'a', 'd', 'a', ' ', 'y', 'a', ' ', 'd', 'a', 'k', 'i', 'k', 'a', ' '], .grp 1 (.number)], [.lit ['i', 'n', ' '], .ref 1, .lit [' ', 'm', 'i', 'n', 'u', 't', 'e']]),
    (.seqs [.lit ['m', 'i', 'a', 'k', 'a', ' '], .grp 1 (.number), .lit [' ', 'i', 'l', 'i', 'y', 'o', 'p', 'i', 't', 'a']], [.ref 1, .lit [' ', 'y', 'e', 'a', 'r', ' ', 'a', 'g', 'o']]),
    (.seqs [.lit ['m', 'i', 'e', 'z', 'i', ' '], .grp 1 (.number), .lit [' ', 'i', 'l', 'i', 'y', 'o', 'p', 'i', 't', 'a']], [.ref 1, .lit [' ', 'm', 'o', 'n', 't', 'h', ' ', 'a', 'g', 'o']]),
    (.seqs [.lit ['s', 'i', 'k', 'u', ' '], .grp 1 (.number), .lit [' ', 'z', 'i', 'l', 'i', 'z', 'o', 'p', 'i', 't', 'a']], [.ref 1, .lit [' ', 'd', 'a', 'y', ' ', 'a', 'g', 'o']]),
    (.seqs [.lit ['w', 'i', 'k', 'i', ' '], .grp 1 (.number), .lit [' ', 'z', 'i', 'l', 'i', 'z', 'o', 'p', 'i', 't', 'a']], [.ref 1, .lit [' ', 'w', 'e', 'e', 'k', ' ', 'a', 'g', 'o']]),
    (.seqs [.lit ['b', 'a', 'a', 'd', 'a', ' ', 'y', 'a', ' ', 'm', 'i', 'a', 'k', 'a', ' '], .grp 1 (.number)], [.lit ['i', 'n', ' '], .ref 1, .lit [' ', 'y', 'e', 'a', 'r']]),
    (.seqs [.lit ['b', 'a', 'a', 'd', 'a', ' ', 'y', 'a', ' ', 'm', 'i', 'e', 'z', 'i', ' '], .grp 1 (.number)], [.lit ['i', 'n', ' '], .ref 1, .lit [' ', 'm', 'o', 'n', 't', 'h']]),
    (.seqs [.lit ['b', 'a', 'a', 'd', 'a', ' ', 'y', 'a', ' ', 'm', 'w', 'a', 'k', 'a', ' '], .grp 1 (.number)], [.lit ['i', 'n', ' '], .ref 1, .lit [' ', 'y', 'e', 'a', 'r']]),
    (.seqs [.lit ['b', 'a', 'a', 'd', 'a', ' ', 'y', 'a', ' ', 'm', 'w', 'e', 'z', 'i', ' '], .grp 1 (.number)], [.lit ['i', 'n', ' '], .ref 1, .lit [' ', 'm', 'o', 'n', 't', 'h']]),
    (.seqs [.lit ['m', 'w', 'a', 'k', 'a', ' '], .grp 1 (.number), .lit [' ', 'u', 'l', 'i', 'o', 'p', 'i', 't', 'a']], [.ref 1, .lit [' ', 'y', 'e', 'a', 'r', ' ', 'a', 'g', 'o']]),
    (.seqs [.lit ['m', 'w', 'e', 'z', 'i', ' '], .grp 1 (.number), .lit [' ', 'u', 'l', 'i', 'o', 'p', 'i', 't', 'a']], [.ref 1, .lit [' ', 'm', 'o', 'n', 't', 'h', ' ', 'a', 'g', 'o']]),
    (.seqs [.lit ['s', 'a', 'a', ' '], .grp 1 (.number), .lit [' ', 'z', 'i', 'l', 'i', 'z', 'o', 'p', 'i', 't', 'a']], [.ref 1, .lit [' ', 'h', 'o', 'u', 'r', ' ', 'a', 'g', 'o']]),
    (.seqs [.lit ['s', 'i', 'k', 'u', ' '], .grp 1 (.number), .lit [' ', 'i', 'l', 'i', 'y', 'o', 'p', 'i', 't', 'a']], [.ref 1, .lit [' ', 'd', 'a', 'y', ' ', 'a', 'g', 'o']]),
    (.seqs [.lit ['w', 'i', 'k', 'i', ' '], .grp 1 (.number), .lit [' ', 'i', 'l', 'i', 'y', 'o', 'p', 'i', 't', 'a']], [.ref 1, .lit [' ', 'w', 'e', 'e', 'k', ' ', 'a', 'g', 'o']]),
    (.seqs [.lit ['b', 'a', 'a', 'd', 'a', ' ', 'y', 'a', ' ', 's', 'i', 'k', 'u', ' '], .grp 1 (.number)], [.lit ['i', 'n', ' '], .ref 1, .lit [' ', 'd', 'a', 'y']]),
    (.seqs [.lit ['b', 'a', 'a', 'd', 'a', ' ', 'y', 'a', ' ', 'w', 'i', 'k', 'i', ' '], .grp 1 (.number)], [.lit ['i', 'n', ' '], .ref 1, .lit [' ', 'w', 'e', 'e', 'k']]),
    (.seqs [.lit ['s', 'a', 'a', ' '], .grp 1 (.number), .lit [' ', 'i', 'l', 'i', 'y', 'o', 'p', 'i', 't', 'a']], [.ref 1, .lit [' ', 'h', 'o', 'u', 'r', ' ', 'a', 'g', 'o']]),
    (.seqs [.lit ['b', 'a', 'a', 'd', 'a', ' ', 'y', 'a', ' ', 's', 'a', 'a', ' '], .grp 1 (.number)], [.lit ['i', 'n', ' '], .ref 1, .lit [' ', 'h', 'o', 'u', 'r']])],
  rxCombined := some (.seqs [.grp 1 (.alts [.bos, .cls true [.letter, .mark, .digit], .lit ['_']]), .grp 2 (.alts [.seqs [.lit ['s', 'e', 'k', 'u', 'n', 'd', 'e', ' '], .number, .lit [' ', 'z', 'i', 'l', 'i', 'z', 'o', 'p', 'i', 't', 'a']], .seqs [.lit ['d', 'a', 'k', 'i', 'k', 'a', ' '], .number, .lit [' ', 'z', 'i', 'l', 'i', 'z', 'o', 'p', 'i', 't', 'a']], .seqs [.lit ['s', 'e', 'k', 'u', 'n', 'd', 'e', ' '], .number, .lit [' ', 'i', 'l', 'i', 'y', 'o', 'p', 'i', 't', 'a']], .seqs [.lit ['b', 'a', 'a', 'd', 'a', ' ', 'y', 'a', ' ', 's', 'e', 'k', 'u', 'n', 'd', 'e', ' '], .number], .seqs [.lit ['d', 'a', 'k', 'i', 'k', 'a', ' '], .number, .lit [' ', 'i', 'l', 'i', 'y', 'o', 'p', 'i', 't', 'a']], .seqs [.lit ['b', 'a', 'a', 'd', 'a', ' ', 'y', 'a', ' ', 'd', 'a', 'k', 'i', 'k', 'a', ' '], .number], .seqs [.lit ['m', 'i', 'a', 'k', 'a', ' '], .number, .lit [' ', 'i', 'l', 'i', 'y', 'o', 'p', 'i', 't', 'a']], .seqs [.lit ['m', 'i', 'e', 'z', 'i', ' '], .number, .lit [' ', 'i', 'l', 'i', 'y', 'o', 'p', 'i', 't', 'a']], .seqs [.lit ['s', 'i', 'k', 'u', ' '], .number, .lit [' ', 'z', 'i', 'l', 'i', 'z', 'o', 'p', 'i', 't', 'a']], .seqs [.lit ['w', 'i', 'k', 'i', ' '], .number, .lit [' ', 'z', 'i', 'l', 'i', 'z', 'o', 'p', 'i', 't', 'a']], .seqs [.lit ['b', 'a', 'a', 'd', 'a', ' ', 'y', 'a', ' ', 'm', 'i', 'a', 'k', 'a', ' '], .number], .seqs [.lit ['b', 'a', 'a', 'd', 'a', ' ', 'y', 'a', ' ', 'm', 'i', 'e', 'z', 'i', ' '], .number], .seqs [.lit ['b', 'a', 'a', 'd', 'a', ' ', 'y', 'a', ' ', 'm', 'w', 'a', 'k', 'a', ' '], .number], .seqs [.lit ['b', 'a', 'a', 'd', 'a', ' ', 'y', 'a', ' ', 'm', 'w', 'e', 'z', 'i', ' '], .number], .seqs [.lit ['m', 'w', 'a', 'k', 'a', ' '], .number, .lit [' ', 'u', 'l', 'i', 'o', 'p', 'i', 't', 'a']], .seqs [.lit ['m', 'w', 'e', 'z', 'i', ' '], .number, .lit [' ', 'u', 'l', 'i', 'o', 'p', 'i', 't', 'a']], .seqs [.lit ['s', 'a', 'a', ' '], .number, .lit [' ', 'z', 'i', 'l', 'i', 'z', 'o', 'p', 'i', 't', 'a']], .seqs [.lit ['s', 'i', 'k', 'u', ' '], .number, .lit [' ', 'i', 'l', 'i', 'y', 'o', 'p', 'i', 't', 'a']], .seqs [.lit ['w', 'i', 'k', 'i', ' '], .number, .lit [' ', 'i', 'l', 'i', 'y', 'o', 'p', 'i', 't', 'a']], .seqs [.lit ['b', 'a', 'a', 'd', 'a', ' ', 'y', 'a', ' ', 's', 'i', 'k', 'u', ' '], .number], .seqs [.lit ['b', 'a', 'a', 'd', 'a', ' ', 'y', 'a', ' ', 'w', 'i', 'k', 'i', ' '], .number], .seqs [.lit ['s', 'a', 'a', ' '], .number, .lit [' ', 'i', 'l', 'i', 'y', 'o', 'p', 'i', 't', 'a']], .seqs [.lit ['b', 'a', 'a', 'd', 'a', ' ', 'y', 'a', ' ', 's', 'a', 'a', ' '], .number]]), .grp 3 (.alts [.eos, .cls true [.letter, .mark, .digit], .lit ['_']])], 3),
  rxExact := some (.seqs [.bos, .grp 1 (.alts [.seqs [.lit ['s', 'e', 'k', 'u', 'n', 'd', 'e', ' '], .number, .lit [' ', 'z', 'i', 'l', 'i', 'z', 'o', 'p', 'i', 't', 'a']], .seqs [.lit ['d', 'a', 'k', 'i', 'k', 'a', ' '], .number, .lit [' ', 'z', 'i', 'l', 'i', 'z', 'o', 'p', 'i', 't', 'a']], .seqs [.lit ['s', 'e', 'k', 'u', 'n', 'd', 'e', ' '], .number, .lit [' ', 'i', 'l', 'i', 'y', 'o', 'p', 'i', 't', 'a']], .seqs [.lit ['b', 'a', 'a', 'd', 'a', ' ', 'y', 'a', ' ', 's', 'e', 'k', 'u', 'n', 'd', 'e', ' '], .number], .seqs [.lit ['d', 'a', 'k', 'i', 'k', 'a', ' '], .number, .lit [' ', 'i', 'l', 'i', 'y', 'o', 'p', 'i', 't', 'a']], .seqs [.lit ['b', 'a', 'a', 'd', 'a', ' ', 'y', 'a', ' ', 'd', 'a', 'k', 'i', 'k', 'a', ' '], .number], .seqs [.lit ['m', 'i', 'a', 'k', 'a', ' '], .number, .lit [' ', 'i', 'l', 'i', 'y', 'o', 'p', 'i', 't', 'a']], .seqs [.lit ['m', 'i', 'e', 'z', 'i', ' '], .number, .lit [' ', 'i', 'l', 'i', 'y', 'o', 'p', 'i', 't', 'a']], .seqs [.lit ['s', 'i', 'k', 'u', ' '], .number, .lit [' ', 'z', 'i', 'l', 'i', 'z', 'o', 'p', 'i', 't', 'a']], .seqs [.lit ['w', 'i', 'k', 'i', ' '], .number, .lit [' ', 'z', 'i', 'l', 'i', 'z', 'o', 'p', 'i', 't', 'a']], .seqs [.lit ['b', 'a', 'a', 'd', 'a', ' ', 'y', 'a', ' ', 'm', 'i', 'a', 'k', 'a', ' '], .number], .seqs [.lit ['b', 'a', 'a', 'd', 'a', ' ', 'y', 'a', ' ', 'm', 'i', 'e', 'z', 'i', ' '], .number], .seqs [.lit ['b', 'a', 'a', 'd', 'a', ' ', 'y', 'a', ' ', 'm', 'w', 'a', 'k', 'a', ' '], .number], .seqs [.lit ['b', 'a', 'a', 'd', 'a', ' ', 'y', 'a', ' ', 'm', 'w', 'e', 'z', 'i', ' '], .number], .seqs [.lit ['m', 'w', 'a', 'k', 'a', ' '], .number, .lit [' ', 'u', 'l', 'i', 'o', 'p', 'i', 't', 'a']], .seqs [.lit ['m', 'w', 'e', 'z', 'i', ' '], .number, .lit [' ', 'u', 'l', 'i', 'o', 'p', 'i', 't', 'a']], .seqs [.lit ['s', 'a', 'a', ' '], .number, .lit [' ', 'z', 'i', 'l', 'i', 'z', 'o', 'p', 'i', 't', 'a']], .seqs [.lit ['s', 'i', 'k', 'u', ' '], .number, .lit [' ', 'i', 'l', 'i', 'y', 'o', 'p', 'i', 't', 'a']], .seqs [.lit ['w', 'i', 'k', 'i', ' '], .number, .lit [' ', 'i', 'l', 'i', 'y', 'o', 'p', 'i', 't', 'a']], .seqs [.lit ['b', 'a', 'a', 'd', 'a', ' ', 'y', 'a', ' ', 's', 'i', 'k', 'u', ' '], .number], .seqs [.lit ['b', 'a', 'a', 'd', 'a', ' ', 'y', 'a', ' ', 'w', 'i', 'k', 'i', ' '], .number], .seqs [.lit ['s', 'a', 'a', ' '], .number, .lit [' ', 'i', 'l', 'i', 'y', 'o', 'p', 'i', 't', 'a']], .seqs [.lit ['b', 'a', 'a', 'd', 'a', ' ', 'y', 'a', ' ', 's', 'a', 'a', ' '], .number]]), .eos]),
  knownWords :=
   [['m', 'w', 'a', 'k', 'a', ' ', 'u', 'l', 'i', 'o', 'p', 'i', 't', 'a'], ['m', 'w', 'e', 'z', 'i', ' ', 'u', 'l', 'i', 'o', 'p', 'i', 't', 'a'], ['w', 'i', 'k', 'i', ' ', 'i', 'l', 'i', 'y', 'o', 'p', 'i', 't', 'a'], ['d', 'a', 'k', 'i', 'k', 'a', ' ', 'h', 'i', 'i'], ['m', 'w', 'a', 'k', 'a', ' ', 'u', 'j', 'a', 'o'], ['m', 'w', 'e', 'z', 'i', ' ', 'u', 'j', 'a', 'o'], ['w', 'i', 'k', 'i', ' ', 'i', 'j', 'a', 'y', 'o'], ['m', 'w', 'a', 'k', 'a', ' ', 'h', 'u', 'u'], ['m', 'w', 'e', 'z', 'i', ' ', 'h', 'u', 'u'], ['s', 'a', 's', 'a', ' ', 'h', 'i', 'v', 'i'], ['a', 'l', 'h', 'a', 'm', 'i', 's', 'i'], ['f', 'e', 'b', 'r', 'u', 'a', 'r', 'i'], ['j', 'u', 'm', 'a', 'm', 'o', 's', 'i'], ['j', 'u', 'm', 'a', 'p', 'i', 'l', 'i'], ['j', 'u', 'm', 'a', 't', 'a', 'n', 'o'], ['j', 'u', 'm', 'a', 't', 'a', 't', 'u'], ['s', 'e', 'p', 't', 'e', 'm', 'b', 'a'], ['w', 'i', 'k', 'i', ' ', 'h', 'i', 'i'], ['a', 's', 'u', 'b', 'u', 'h', 'i'], ['d', 'e', 's', 'e', 'm', 'b', 'a'], ['j', 'a', 'n', 'u', 'a', 'r', 'i'], ['j', 'u', 'm', 'a', 'n', 'n', 'e'], ['n', 'o', 'v', 'e', 'm', 'b', 'a'], ['s', 'a', 'a', ' ', 'h', 'i', 'i'], ['s', 'e', 'k', 'u', 'n', 'd', 'e'], ['a', 'g', 'o', 's', 't', 'i'], ['a', 'p', 'r', 'i', 'l', 'i'], ['d', 'a', 'k', 'i', 'k', 'a'], ['i', 'j', 'u', 'm', 'a', 'a'], ['m', 'c', 'h', 'a', 'n', 'a'], ['o', 'k', 't', 'o', 'b', 'a'], ['j', 'u', 'l', 'a', 'i'], ['k', 'e', 's', 'h', 'o'], ['m', 'a', 'c', 'h', 'i'], ['m', 'w', 'a', 'k', 'a'], ['m', 'w', 'e', 'z', 'i'], ['j', 'a', 'n', 'a'], ['j', 'u', 'n', 'i'], ['s', 'i', 'k', 'u'], ['w', 'i', 'k', 'i'], ['a', 'g', 'o'], ['a', 'p', 'r'], ['d', 'a', 'k'], ['d', 'e', 's'], ['f', 'e', 'b'], ['g', 'm', 't'], ['j', 'a', 'n'], ['j', 'u', 'l'], ['j', 'u', 'n'], ['l', 'e', 'o'], ['m', 'a', 'c'], ['m', 'e', 'i'], ['n', 'o', 'v'], ['o', 'k', 't'], ['s', 'a', 'a'], ['s', 'e', 'k'], ['s', 'e', 'p'], ['u', 't', 'c'], ['a', 'm'], ['p', 'm'], [' '], ['\''], ['+'], [','], ['-'], ['.'], ['/'], [':'], [';'], ['@'], ['['], [']'], ['z'], ['|']] }

/-- internal/data/sw.go: `sw_CD_Locale`. -/
def sw_CDLang : LangData := { sw_CDDict with
  knownWords :=
   [['m', 'w', 'a', 'k', 'a', ' ', 'u', 'l', 'i', 'o', 'p', 'i', 't', 'a'], ['m', 'w', 'e', 'z', 'i', ' ', 'u', 'l', 'i', 'o', 'p', 'i', 't', 'a'], ['w', 'i', 'k', 'i', ' ', 'i', 'l', 'i', 'y', 'o', 'p', 'i', 't', 'a'], ['d', 'a', 'k', 'i', 'k', 'a', ' ', 'h', 'i', 'i'], ['m', 'w', 'a', 'k', 'a', ' ', 'u', 'j', 'a', 'o'], ['m', 'w', 'e', 'z', 'i', ' ', 'u', 'j', 'a', 'o'], ['w', 'i', 'k', 'i', ' ', 'i', 'j', 'a', 'y', 'o'], ['m', 'w', 'a', 'k', 'a', ' ', 'h', 'u', 'u'], ['m', 'w', 'e', 'z', 'i', ' ', 'h', 'u', 'u'], ['s', 'a', 's', 'a', ' ', 'h', 'i', 'v', 'i'], ['a', 'l', 'h', 'a', 'm', 'i', 's', 'i'], ['f', 'e', 'b', 'r', 'u', 'a', 'r', 'i'], ['j', 'u', 'm', 'a', 'm', 'o', 's', 'i'], ['j', 'u', 'm', 'a', 'p', 'i', 'l', 'i'], ['j', 'u', 'm', 'a', 't', 'a', 'n', 'o'], ['j', 'u', 'm', 'a', 't', 'a', 't', 'u'], ['s', 'e', 'p', 't', 'e', 'm', 'b', 'a'], ['w', 'i', 'k', 'i', ' ', 'h', 'i', 'i'], ['a', 's', 'u', 'b', 'u', 'h', 'i'], ['d', 'e', 's', 'e', 'm', 'b', 'a'], ['j', 'a', 'n', 'u', 'a', 'r', 'i'], ['j', 'u', 'm', 'a', 'n', 'n', 'e'], ['n', 'o', 'v', 'e', 'm', 'b', 'a'], ['s', 'a', 'a', ' ', 'h', 'i', 'i'], ['s', 'e', 'k', 'u', 'n', 'd', 'e'], ['a', 'g', 'o', 's', 't', 'i'], ['a', 'p', 'r', 'i', 'l', 'i'], ['d', 'a', 'k', 'i', 'k', 'a'], ['i', 'j', 'u', 'm', 'a', 'a'], ['m', 'c', 'h', 'a', 'n', 'a'], ['o', 'k', 't', 'o', 'b', 'a'], ['j', 'u', 'l', 'a', 'i'], ['k', 'e', 's', 'h', 'o'], ['m', 'a', 'c', 'h', 'i'], ['m', 'w', 'a', 'k', 'a'], ['m', 'w', 'e', 'z', 'i'], ['j', 'a', 'n', 'a'], ['j', 'u', 'm', 'a'], ['j', 'u', 'n', 'i'], ['s', 'i', 'k', 'u'], ['w', 'i', 'k', 'i'], ['a', 'g', 'o'], ['a', 'p', 'r'], ['d', 'a', 'k'], ['d', 'e', 's'], ['f', 'e', 'b'], ['g', 'm', 't'], ['j', 'a', 'n'], ['j', 'u', 'l'], ['j', 'u', 'n'], ['l', 'e', 'o'], ['m', 'a', 'c'], ['m', 'e', 'i'], ['n', 'o', 'v'], ['o', 'k', 't'], ['s', 'a', 'a'], ['s', 'e', 'k'], ['s', 'e', 'p'], ['u', 't', 'c'], ['a', 'm'], ['p', 'm'], [' '], ['\''], ['+'], [','], ['-'], ['.'], ['/'], [':'], [';'], ['@'], ['['], [']'], ['z'], ['|']] }

/-- internal/data/sw.go: `sw_KE_Locale`. -/
def sw_KELang : LangData := sw_KEDict

/-- internal/data/sw.go: `sw_UG_Locale`. -/
def sw_UGLang : LangData := sw_UGDict

/-- internal/data/ta.go: `ta_Locale`. -/
def taLang : LangData := { taDict with
  relativeRegexes :=
   [(.seqs [.grp 1 (.number), .lit [' ', 'ந', 'ி', 'ம', 'ி', 'ட', 'ங', 'க', 'ள', 'ு', 'க', 'க', 'ு', ' ', 'ம', 'ு', 'ன']], [.ref 1, .lit [' ', 'm', 'i', 'n', 'u', 't', 'e', ' ', 'a', 'g', 'o']]),
    (.seqs [.grp 1 (.number), .lit [' ', 'வ', 'ி', 'ந', 'ா', 'ட', 'ி', 'க', 'ள', 'ு', 'க', 'க', 'ு', ' ', 'ம', 'ு', 'ன']], [.ref 1, .lit [' ', 's', 'e', 'c', 'o', 'n', 'd', ' ', 'a', 'g', 'o']]),
    (.seqs [.grp 1 (.number), .lit [' ', 'ந', 'ி', 'ம', 'ி', 'ட', 'த', 'த', 'ி', 'ற', 'க', 'ு', ' ', 'ம', 'ு', 'ன']], [.ref 1, .lit [' ', 'm', 'i', 'n', 'u', 't', 'e', ' ', 'a', 'g', 'o']]),
    (.seqs [.grp 1 (.number), .lit [' ', 'வ', 'ா', 'ர', 'த', 'த', 'ி', 'ற', 'க', 'ு', ' ', 'ம', 'ு', 'ன', 'ப', 'ு']], [.ref 1, .lit [' ', 'w', 'e', 'e', 'k', ' ', 'a', 'g', 'o']]),
    (.seqs [.grp 1 (.number), .lit [' ', 'ஆ', 'ண', 'ட', 'ு', 'க', 'ள', 'ு', 'க', 'க', 'ு', ' ', 'ம', 'ு', 'ன']], [.ref 1, .lit [' ', 'y', 'e', 'a', 'r', ' ', 'a', 'g', 'o']]),
    (.seqs [.grp 1 (.number), .lit [' ', 'ம', 'ா', 'த', 'ங', 'க', 'ள', 'ு', 'க', 'க', 'ு', ' ', 'ம', 'ு', 'ன']], [.ref 1, .lit [' ', 'm', 'o', 'n', 't', 'h', ' ', 'a', 'g', 'o']]),
    (.seqs [.grp 1 (.number), .lit [' ', 'வ', 'ா', 'ர', 'ங', 'க', 'ள', 'ு', 'க', 'க', 'ு', ' ', 'ம', 'ு', 'ன']], [.ref 1, .lit [' ', 'w', 'e', 'e', 'k', ' ', 'a', 'g', 'o']]),
    (.seqs [.grp 1 (.number), .lit [' ', 'ந', 'ா', 'ட', 'க', 'ள', 'ு', 'க', 'க', 'ு', ' ', 'ம', 'ு', 'ன']], [.ref 1, .lit [' ', 'd', 'a', 'y', ' ', 'a', 'g', 'o']]),
    (.seqs [.grp 1 (.number), .lit [' ', 'ம', 'ா', 'த', 'த', 'த', 'ு', 'க', 'க', 'ு', ' ', 'ம', 'ு', 'ன']], [.ref 1, .lit [' ', 'm', 'o', 'n', 't', 'h', ' ', 'a', 'g', 'o']]),
    (.seqs [.grp 1 (.number), .lit [' ', 'வ', 'ி', 'ந', 'ா', 'ட', 'ி', 'க', 'க', 'ு', ' ', 'ம', 'ு', 'ன']], [.ref 1, .lit [' ', 's', 'e', 'c', 'o', 'n', 'd', ' ', 'a', 'g', 'o']]),
    (.seqs [.grp 1 (.number), .lit [' ', 'ஆ', 'ண', 'ட', 'ி', 'ற', 'க', 'ு', ' ', 'ம', 'ு', 'ன']], [.ref 1, .lit [' ', 'y', 'e', 'a', 'r', ' ', 'a', 'g', 'o']]),
    (.seqs [.grp 1 (.number), .lit [' ', 'ந', 'ா', 'ள', 'ு', 'க', 'க', 'ு', ' ', 'ம', 'ு', 'ன']], [.ref 1, .lit [' ', 'd', 'a', 'y', ' ', 'a', 'g', 'o']]),
    (.seqs [.grp 1 (.number), .lit [' ', 'ம', 'ண', 'ி', 'ந', 'ே', 'ர', 'ம', ' ', 'ம', 'ு', 'ன']], [.ref 1, .lit [' ', 'h', 'o', 'u', 'r', ' ', 'a', 'g', 'o']]),
    (.seqs [.grp 1 (.number), .lit [' ', 'ந', 'ி', 'ம', 'ி', 'ட', 'ங', 'க', 'ள', 'ி', 'ல']], [.lit ['i', 'n', ' '], .ref 1, .lit [' ', 'm', 'i', 'n', 'u', 't', 'e']]),
    (.seqs [.grp 1 (.number), .lit [' ', 'ம', 'ண', 'ி', 'ந', 'ே', 'ர', 'த', 'த', 'ி', 'ல']], [.lit ['i', 'n', ' '], .ref 1, .lit [' ', 'h', 'o', 'u', 'r']]),
    (.seqs [.grp 1 (.number), .lit [' ', 'வ', 'ி', 'ந', 'ா', 'ட', 'ி', 'க', 'ள', 'ி', 'ல']], [.lit ['i', 'n', ' '], .ref 1, .lit [' ', 's', 'e', 'c', 'o', 'n', 'd']]),
    (.seqs [.grp 1 (.number), .lit [' ', 'ந', 'ி', 'ம', 'ி', 'ட', 'த', 'த', 'ி', 'ல']], [.lit ['i', 'n', ' '], .ref 1, .lit [' ', 'm', 'i', 'n', 'u', 't', 'e']]),
    (.seqs [.grp 1 (.number), .lit [' ', 'வ', 'ி', 'ந', 'ா', 'ட', 'ி', 'ய', 'ி', 'ல']], [.lit ['i', 'n', ' '], .ref 1, .lit [' ', 's', 'e', 'c', 'o', 'n', 'd']]),
    (.seqs [.grp 1 (.number), .lit [' ', 'ஆ', 'ண', 'ட', 'ு', 'க', 'ள', 'ி', 'ல']], [.lit ['i', 'n', ' '], .ref 1, .lit [' ', 'y', 'e', 'a', 'r']]),
    (.seqs [.grp 1 (.number), .lit [' ', 'ந', 'ி', 'ம', 'ி', ' ', 'ம', 'ு', 'ன']], [.ref 1, .lit [' ', 'm', 'i', 'n', 'u', 't', 'e', ' ', 'a', 'g', 'o']]),
    (.seqs [.grp 1 (.number), .lit [' ', 'ம', 'ா', 'த', 'ங', 'க', 'ள', 'ி', 'ல']], [.lit ['i', 'n', ' '], .ref 1, .lit [' ', 'm', 'o', 'n', 't', 'h']]),
    (.seqs [.grp 1 (.number), .lit [' ', 'வ', 'ா', 'ர', 'ங', 'க', 'ள', 'ி', 'ல']], [.lit ['i', 'n', ' '], .ref 1, .lit [' ', 'w', 'e', 'e', 'k']]),
    (.seqs [.grp 1 (.number), .lit [' ', 'வ', 'ி', 'ந', 'ா', ' ', 'ம', 'ு', 'ன']], [.ref 1, .lit [' ', 's', 'e', 'c', 'o', 'n', 'd', ' ', 'a', 'g', 'o']]),
    (.seqs [.grp 1 (.number), .lit [' ', 'ந', 'ா', 'ட', 'க', 'ள', 'ி', 'ல']], [.lit ['i', 'n', ' '], .ref 1, .lit [' ', 'd', 'a', 'y']]),
    (.seqs [.grp 1 (.number), .lit [' ', 'ம', 'ண', 'ி', ' ', 'ம', 'ு', 'ன']], [.ref 1, .lit [' ', 'h', 'o', 'u', 'r', ' ', 'a', 'g', 'o']]),
    (.seqs [.grp 1 (.number), .lit [' ', 'ம', 'ா', 'த', ' ', 'ம', 'ு', 'ன']], [.ref 1, .lit [' ', 'm', 'o', 'n', 't', 'h', ' ', 'a', 'g', 'o']]),
    (.seqs [.grp 1 (.number), .lit [' ', 'ம', 'ா', 'த', 'த', 'த', 'ி', 'ல']], [.lit ['i', 'n', ' '], .ref 1, .lit [' ', 'm', 'o', 'n', 't', 'h']]),
    (.seqs [.grp 1 (.number), .lit [' ', 'வ', 'ா', 'ர', ' ', 'ம', 'ு', 'ன']], [.ref 1, .lit [' ', 'w', 'e', 'e', 'k', ' ', 'a', 'g', 'o']]),
    (.seqs [.grp 1 (.number), .lit [' ', 'வ', 'ா', 'ர', 'த', 'த', 'ி', 'ல']], [.lit ['i', 'n', ' '], .ref 1, .lit [' ', 'w', 'e', 'e', 'k']]),
    (.seqs [.grp 1 (.number), .lit [' ', 'ந', 'ா', ' ', 'ம', 'ு', 'ன']], [.ref 1, .lit [' ', 'd', 'a', 'y', ' ', 'a', 'g', 'o']]),
    (.seqs [.grp 1 (.number), .lit [' ', 'ந', 'ி', ' ', 'ம', 'ு', 'ன']], [.ref 1, .lit [' ', 'm', 'i', 'n', 'u', 't', 'e', ' ', 'a', 'g', 'o']]),
    (.seqs [.grp 1 (.number), .lit [' ', 'ம', 'ா', ' ', 'ம', 'ு', 'ன']], [.ref 1, .lit [' ', 'm', 'o', 'n', 't', 'h', ' ', 'a', 'g', 'o']]),
    (.seqs [.grp 1 (.number), .lit [' ', 'வ', 'ா', ' ', 'ம', 'ு', 'ன']], [.ref 1, .lit [' ', 'w', 'e', 'e', 'k', ' ', 'a', 'g', 'o']]),
    (.seqs [.grp 1 (.number), .lit [' ', 'வ', 'ி', ' ', 'ம', 'ு', 'ன']], [.ref 1, .lit [' ', 's', 'e', 'c', 'o', 'n', 'd', ' ', 'a', 'g', 'o']]),
    (.seqs [.grp 1 (.number), .lit [' ', 'ஆ', ' ', 'ம', 'ு', 'ன']], [.ref 1, .lit [' ', 'y', 'e', 'a', 'r', ' ', 'a', 'g', 'o']]),
    (.seqs [.grp 1 (.number), .lit [' ', 'ஆ', 'ண', 'ட', 'ி', 'ல']], [.lit ['i', 'n', ' '], .ref 1, .lit [' ', 'y', 'e', 'a', 'r']]),
    (.seqs [.grp 1 (.number), .lit [' ', 'ந', 'ா', 'ள', 'ி', 'ல']], [.lit ['i', 'n', ' '], .ref 1, .lit [' ', 'd', 'a', 'y']]),
    (.seqs [.grp 1 (.number), .lit [' ', 'ம', ' ', 'ம', 'ு', 'ன']], [.ref 1, .lit [' ', 'h', 'o', 'u', 'r', ' ', 'a', 'g', 'o']]),
    (.seqs [.grp 1 (.number), .lit [' ', 'ந', 'ி', 'ம', 'ி']], [.lit ['i', 'n', ' '], .ref 1, .lit [' ', 'm', 'i', 'n', 'u', 't', 'e']]),
    (.seqs [.grp 1 (.number), .lit [' ', 'வ', 'ி', 'ந', 'ா']], [.lit ['i', 'n', ' '], .ref 1, .lit [' ', 's', 'e', 'c', 'o', 'n', 'd']]),
    (.seqs [.grp 1 (.number), .lit [' ', 'ம', 'ண', 'ி']], [.lit ['i', 'n', ' '], .ref 1, .lit [' ', 'h', 'o', 'u', 'r']]),
    (.seqs [.grp 1 (.number), .lit [' ', 'ம', 'ா', 'த']], [.lit ['i', 'n', ' '], .ref 1, .lit [' ', 'm', 'o', 'n', 't', 'h']]),
    (.seqs [.grp 1 (.number), .lit [' ', 'வ', 'ா', 'ர']], [.lit ['i', 'n', ' '], .ref 1, .lit [' ', 'w', 'e', 'e', 'k']]),
    (.seqs [.grp 1 (.number), .lit [' ', 'ந', 'ா']], [.lit ['i', 'n', ' '], .ref 1, .lit [' ', 'd', 'a', 'y']]),
    (.seqs [.grp 1 (.number), .lit [' ', 'ந', 'ி']], [.lit ['i', 'n', ' '], .ref 1, .lit [' ', 'm', 'i', 'n', 'u', 't', 'e']]),
    (.seqs [.grp 1 (.number), .lit [' ', 'ம', 'ா']], [.lit ['i', 'n', ' '], .ref 1, .lit [' ', 'm', 'o', 'n', 't', 'h']]),
    (.seqs [.grp 1 (.number), .lit [' ', 'வ', 'ா']], [.lit ['i', 'n', ' '], .ref 1, .lit [' ', 'w', 'e', 'e', 'k']]),
    (.seqs [.grp 1 (.number), .lit [' ', 'வ', 'ி']], [.lit ['i', 'n', ' '], .ref 1, .lit [' ', 's', 'e', 'c', 'o', 'n', 'd']]),
    (.seqs [.grp 1 (.number), .lit [' ', 'ஆ']], [.lit ['i', 'n', ' '], .ref 1, .lit [' ', 'y', 'e', 'a', 'r']]),
    (.seqs [.grp 1 (.number), .lit [' ', 'ம']], [.lit ['i', 'n', ' '], .ref 1, .lit [' ', 'h', 'o', 'u', 'r']])],
  rxCombined := some (.seqs [.grp 1 (.alts [.bos, .cls true [.letter, .mark, .digit], .lit ['_']]), .grp 2 (.alts [.seqs [.number, .lit [' ', 'ந', 'ி', 'ம', 'ி', 'ட', 'ங', 'க', 'ள', 'ு', 'க', 'க', 'ு', ' ', 'ம', 'ு', 'ன']], .seqs [.number, .lit [' ', 'வ', 'ி', 'ந', 'ா', 'ட', 'ி', 'க', 'ள', 'ு', 'க', 'க', 'ு', ' ', 'ம', 'ு', 'ன']], .seqs [.number, .lit [' ', 'ந', 'ி', 'ம', 'ி', 'ட', 'த', 'த', 'ி', 'ற', 'க', 'ு', ' ', 'ம', 'ு', 'ன']], .seqs [.number, .lit [' ', 'வ', 'ா', 'ர', 'த', 'த', 'ி', 'ற', 'க', 'ு', ' ', 'ம', 'ு', 'ன', 'ப', 'ு']], .seqs [.number, .lit [' ', 'ஆ', 'ண', 'ட', 'ு', 'க', 'ள', 'ு', 'க', 'க', 'ு', ' ', 'ம', 'ு', 'ன']], .seqs [.number, .lit [' ', 'ம', 'ா', 'த', 'ங', 'க', 'ள', 'ு', 'க', 'க', 'ு', ' ', 'ம', 'ு', 'ன']], .seqs [.number, .lit [' ', 'வ', 'ா', 'ர', 'ங', 'க', 'ள', 'ு', 'க', 'க', 'ு', ' ', 'ம', 'ு', 'ன']], .seqs [.number, .lit [' ', 'ந', 'ா', 'ட', 'க', 'ள', 'ு', 'க', 'க', 'ு', ' ', 'ம', 'ு', 'ன']], .seqs [.number, .lit [' ', 'ம', 'ா', 'த', 'த', 'த', 'ு', 'க', 'க', 'ு', ' ', 'ம', 'ு', 'ன']], .seqs [.number, .lit [' ', 'வ', 'ி', 'ந', 'ா', 'ட', 'ி', 'க', 'க', 'ு', ' ', 'ம', 'ு', 'ன']], .seqs [.number, .lit [' ', 'ஆ', 'ண', 'ட', 'ி', 'ற', 'க', 'ு', ' ', 'ம', 'ு', 'ன']], .seqs [.number, .lit [' ', 'ந', 'ா', 'ள', 'ு', 'க', 'க', 'ு', ' ', 'ம', 'ு', 'ன']], .seqs [.number, .lit [' ', 'ம', 'ண', 'ி', 'ந', 'ே', 'ர', 'ம', ' ', 'ம', 'ு', 'ன']], .seqs [.number, .lit [' ', 'ந', 'ி', 'ம', 'ி', 'ட', 'ங', 'க', 'ள', 'ி', 'ல']], .seqs [.number, .lit [' ', 'ம', 'ண', 'ி', 'ந', 'ே', 'ர', 'த', 'த', 'ி', 'ல']], .seqs [.number, .lit [' ', 'வ', 'ி', 'ந', 'ா', 'ட', 'ி', 'க', 'ள', 'ி', 'ல']], .seqs [.number, .lit [' ', 'ந', 'ி', 'ம', 'ி', 'ட', 'த', 'த', 'ி', 'ல']], .seqs [.number, .lit [' ', 'வ', 'ி', 'ந', 'ா', 'ட', 'ி', 'ய', 'ி', 'ல']], .seqs [.number, .lit [' ', 'ஆ', 'ண', 'ட', 'ு', 'க', 'ள', 'ி', 'ல']], .seqs [.number, .lit [' ', 'ந', 'ி', 'ம', 'ி', ' ', 'ம', 'ு', 'ன']], .seqs [.number, .lit [' ', 'ம', 'ா', 'த', 'ங', 'க', 'ள', 'ி', 'ல']], .seqs [.number, .lit [' ', 'வ', 'ா', 'ர', 'ங', 'க', 'ள', 'ி', 'ல']], .seqs [.number, .lit [' ', 'வ', 'ி', 'ந', 'ா', ' ', 'ம', 'ு', 'ன']], .seqs [.number, .lit [' ', 'ந', 'ா', 'ட', 'க', 'ள', 'ி', 'ல']], .seqs [.number, .lit [' ', 'ம', 'ண', 'ி', ' ', 'ம', 'ு', 'ன']], .seqs [.number, .lit [' ', 'ம', 'ா', 'த', ' ', 'ம', 'ு', 'ன']], .seqs [.number, .lit [' ', 'ம', 'ா', 'த', 'த', 'த', 'ி', 'ல']], .seqs [.number, .lit [' ', 'வ', 'ா', 'ர', ' ', 'ம', 'ு', 'ன']], .seqs [.number, .lit [' ', 'வ', 'ா', 'ர', 'த', 'த', 'ி', 'ல']], .seqs [.number, .lit [' ', 'ந', 'ா', ' ', 'ம', 'ு', 'ன']], .seqs [.number, .lit [' ', 'ந', 'ி', ' ', 'ம', 'ு', 'ன']], .seqs [.number, .lit [' ', 'ம', 'ா', ' ', 'ம', 'ு', 'ன']], .seqs [.number, .lit [' ', 'வ', 'ா', ' ', 'ம', 'ு', 'ன']], .seqs [.number, .lit [' ', 'வ', 'ி', ' ', 'ம', 'ு', 'ன']], .seqs [.number, .lit [' ', 'ஆ', ' ', 'ம', 'ு', 'ன']], .seqs [.number, .lit [' ', 'ஆ', 'ண', 'ட', 'ி', 'ல']], .seqs [.number, .lit [' ', 'ந', 'ா', 'ள', 'ி', 'ல']], .seqs [.number, .lit [' ', 'ம', ' ', 'ம', 'ு', 'ன']], .seqs [.number, .lit [' ', 'ந', 'ி', 'ம', 'ி']], .seqs [.number, .lit [' ', 'வ', 'ி', 'ந', 'ா']], .seqs [.number, .lit [' ', 'ம', 'ண', 'ி']], .seqs [.number, .lit [' ', 'ம', 'ா', 'த']], .seqs [.number, .lit [' ', 'வ', 'ா', 'ர']], .seqs [.number, .lit [' ', 'ந', 'ா']], .seqs [.number, .lit [' ', 'ந', 'ி']], .seqs [.number, .lit [' ', 'ம', 'ா']], .seqs [.number, .lit [' ', 'வ', 'ா']], .seqs [.number, .lit [' ', 'வ', 'ி']], .seqs [.number, .lit [' ', 'ஆ']], .seqs [.number, .lit [' ', 'ம']]]), .grp 3 (.alts [.eos, .cls true [.letter, .mark, .digit], .lit ['_']])], 3),
  rxExact := some (.seqs [.bos, .grp 1 (.alts [.seqs [.number, .lit [' ', 'ந', 'ி', 'ம', 'ி', 'ட', 'ங', 'க', 'ள', 'ு', 'க', 'க', 'ு', ' ', 'ம', 'ு', 'ன']], .seqs [.number, .lit [' ', 'வ', 'ி', 'ந', 'ா', 'ட', 'ி', 'க', 'ள', 'ு', 'க', 'க', 'ு', ' ', 'ம', 'ு', 'ன']], .seqs [.number, .lit [' ', 'ந', 'ி', 'ம', 'ி', 'ட', 'த', 'த', 'ி', 'ற', 'க', 'ு', ' ', 'ம', 'ு', 'ன']], .seqs [.number, .lit [' ', 'வ', 'ா', 'ர', 'த', 'த', 'ி', 'ற', 'க', 'ு', ' ', 'ம', 'ு', 'ன', 'ப', 'ு']], .seqs [.number, .lit [' ', 'ஆ', 'ண', 'ட', 'ு', 'க', 'ள', 'ு', 'க', 'க', 'ு', ' ', 'ம', 'ு', 'ன']], .seqs [.number, .lit [' ', 'ம', 'ா', 'த', 'ங', 'க', 'ள', 'ு', 'க', 'க', 'ு', ' ', 'ம', 'ு', 'ன']], .seqs [.number, .lit [' ', 'வ', 'ா', 'ர', 'ங', 'க', 'ள', 'ு', 'க', 'க', 'ு', ' ', 'ம', 'ு', 'ன']], .seqs [.number, .lit [' ', 'ந', 'ா', 'ட', 'க', 'ள', 'ு', 'க', 'க', 'ு', ' ', 'ம', 'ு', 'ன']], .seqs [.number, .lit [' ', 'ம', 'ா', 'த', 'த', 'த', 'ு', 'க', 'க', 'ு', ' ', 'ம', 'ு', 'ன']], .seqs [.number, .lit [' ', 'வ', 'ி', 'ந', 'ா', 'ட', 'ி', 'க', 'க', 'ு', ' ', 'ம', 'ு', 'ன']], .seqs [.number, .lit [' ', 'ஆ', 'ண', 'ட', 'ி', 'ற', 'க', 'ு', ' ', 'ம', 'ு', 'ன']], .seqs [.number, .lit [' ', 'ந', 'ா', 'ள', 'ு', 'க', 'க', 'ு', ' ', 'ம', 'ு', 'ன']], .seqs [.number, .lit [' ', 'ம', 'ண', 'ி', 'ந', 'ே', 'ர', 'ம', ' ', 'ம', 'ு', 'ன']], .seqs [.number, .lit [' ', 'ந', 'ி', 'ம', 'ி', 'ட', 'ங', 'க', 'ள', 'ி', 'ல']], .seqs [.number, .lit [' ', 'ம', 'ண', 'ி', 'ந', 'ே', 'ர', 'த', 'த', 'ி', 'ல']], .seqs [.number, .lit [' ', 'வ', 'ி', 'ந', 'ா', 'ட', 'ி', 'க', 'ள', 'ி', 'ல']], .seqs [.number, .lit [' ', 'ந', 'ி', 'ம', 'ி', 'ட', 'த', 'த', 'ி', 'ல']], .seqs [.number, .lit [' ', 'வ', 'ி', 'ந', 'ா', 'ட', 'ி', 'ய', 'ி', 'ல']], .seqs [.number, .lit [' ', 'ஆ', 'ண', 'ட', 'ு', 'க', 'ள', 'ி', 'ல']], .seqs [.number, .lit [' ', 'ந', 'ி', 'ம', 'ி', ' ', 'ம', 'ு', 'ன']], .seqs [.number, .lit [' ', 'ம', 'ா', 'த', 'ங', 'க', 'ள', 'ி', 'ல']], .seqs [.number, .lit [' ', 'வ', 'ா', 'ர', 'ங', 'க', 'ள', 'ி', 'ல']], .seqs [.number, .lit [' ', 'வ', 'ி', 'ந', 'ா', ' ', 'ம', 'ு', 'ன']], .seqs [.number, .lit [' ', 'ந', 'ா', 'ட', 'க', 'ள', 'ி', 'ல']], .seqs [.number, .lit [' ', 'ம', 'ண', 'ி', ' ', 'ம', 'ு', 'ன']], .seqs [.number, .lit [' ', 'ம', 'ா', 'த', ' ', 'ம', 'ு', 'ன']], .seqs [.number, .lit [' ', 'ம', 'ா', 'த', 'த', 'த', 'ி', 'ல']], .seqs [.number, .lit [' ', 'வ', 'ா', 'ர', ' ', 'ம', 'ு', 'ன']], .seqs [.number, .lit [' ', 'வ', 'ா', 'ர', 'த', 'த', 'ி', 'ல']], .seqs [.number, .lit [' ', 'ந', 'ா', ' ', 'ம', 'ு', 'ன']], .seqs [.number, .lit [' ', 'ந', 'ி', ' ', 'ம', 'ு', 'ன']], .seqs [.number, .lit [' ', 'ம', 'ா', ' ', 'ம', 'ு', 'ன']], .seqs [.number, .lit [' ', 'வ', 'ா', ' ', 'ம', 'ு', 'ன']], .seqs [.number, .lit [' ', 'வ', 'ி', ' ', 'ம', 'ு', 'ன']], .seqs [.number, .lit [' ', 'ஆ', ' ', 'ம', 'ு', 'ன']], .seqs [.number, .lit [' ', 'ஆ', 'ண', 'ட', 'ி', 'ல']], .seqs [.number, .lit [' ', 'ந', 'ா', 'ள', 'ி', 'ல']], .seqs [.number, .lit [' ', 'ம', ' ', 'ம', 'ு', 'ன']], .seqs [.number, .lit [' ', 'ந', 'ி', 'ம', 'ி']], .seqs [.number, .lit [' ', 'வ', 'ி', 'ந', 'ா']], .seqs [.number, .lit [' ', 'ம', 'ண', 'ி']], .seqs [.number, .lit [' ', 'ம', 'ா', 'த']], .seqs [.number, .lit [' ', 'வ', 'ா', 'ர']], .seqs [.number, .lit [' ', 'ந', 'ா']], .seqs [.number, .lit [' ', 'ந', 'ி']], .seqs [.number, .lit [' ', 'ம', 'ா']], .seqs [.number, .lit [' ', 'வ', 'ா']], .seqs [.number, .lit [' ', 'வ', 'ி']], .seqs [.number, .lit [' ', 'ஆ']], .seqs [.number, .lit [' ', 'ம']]]), .eos]),
  knownWords :=
   [['இ', 'ந', 'த', ' ', 'ஒ', 'ர', 'ு', ' ', 'ம', 'ண', 'ி', 'ந', 'ே', 'ர', 'த', 'த', 'ி', 'ல'], ['இ', 'ந', 'த', ' ', 'ஒ', 'ர', 'ு', ' ', 'ந', 'ி', 'ம', 'ி', 'ட', 'த', 'த', 'ி', 'ல'], ['அ', 'ட', 'ு', 'த', 'த', ' ', 'ஆ', 'ண', 'ட', 'ு'], ['அ', 'ட', 'ு', 'த', 'த', ' ', 'ம', 'ா', 'த', 'ம'], ['அ', 'ட', 'ு', 'த', 'த', ' ', 'வ', 'ா', 'ர', 'ம'], ['க', 'ட', 'ந', 'த', ' ', 'ஆ', 'ண', 'ட', 'ு'], ['க', 'ட', 'ந', 'த', ' ', 'ம', 'ா', 'த', 'ம'], ['க', 'ட', 'ந', 'த', ' ', 'வ', 'ா', 'ர', 'ம'], ['இ', 'ந', 'த', ' ', 'ஆ', 'ண', 'ட', 'ு'], ['இ', 'ந', 'த', ' ', 'ம', 'ா', 'த', 'ம'], ['இ', 'ந', 'த', ' ', 'வ', 'ா', 'ர', 'ம'], ['ச', 'ெ', 'ப', 'ட', 'ம', 'ப', 'ர'], ['ப', 'ி', 'ப', 'ர', 'வ', 'ர', 'ி'], ['அ', 'க', 'ட', 'ோ', 'ப', 'ர'], ['இ', 'ப', 'ப', 'ோ', 'த', 'ு'], ['ச', 'ெ', 'வ', 'வ', 'ா', 'ய'], ['ஞ', 'ா', 'ய', 'ி', 'ற', 'ு'], ['ட', 'ி', 'ச', 'ம', 'ப', 'ர'], ['ந', 'ி', 'ம', 'ி', 'ட', 'ம'], ['ப', 'ி', 'ற', 'ப', 'க', 'ல'], ['ம', 'ு', 'ற', 'ப', 'க', 'ல'], ['வ', 'ி', 'ந', 'ா', 'ட', 'ி'], ['வ', 'ி', 'ய', 'ா', 'ழ', 'ன'], ['ஜ', 'ன', 'வ', 'ர', 'ி'], ['த', 'ி', 'ங', 'க', 'ள'], ['ந', 'வ', 'ம', 'ப', 'ர'], ['ந', 'ே', 'ற', 'ற', 'ு'], ['வ', 'ெ', 'ள', 'ள', 'ி'], ['ஆ', 'க', 'ஸ', 'ட'], ['ஆ', 'ண', 'ட', 'ு'], ['இ', 'ன', 'ற', 'ு'], ['ஏ', 'ப', 'ர', 'ல'], ['ஜ', 'ூ', 'ல', 'ை'], ['ஞ', 'ா', 'ய', 'ி'], ['ந', 'ா', 'ள', 'ை'], ['ந', 'ி', 'ம', 'ி'], ['ப', 'ு', 'த', 'ன'], ['ம', 'ா', 'த', 'ம'], ['ம', 'ா', 'ர', 'ச'], ['வ', 'ா', 'ர', 'ம'], ['வ', 'ி', 'ந', 'ா'], ['வ', 'ி', 'ய', 'ா'], ['g', 'm', 't'], ['u', 't', 'c'], ['ச', 'ன', 'ி'], ['ச', 'ெ', 'ப'], ['ச', 'ெ', 'வ'], ['ஜ', 'ூ', 'ன'], ['ட', 'ி', 'ச'], ['த', 'ி', 'ங'], ['ந', 'ா', 'ள'], ['ப', 'ி', 'ப'], ['ப', 'ு', 'த'], ['ம', 'ண', 'ி'], ['ம', 'ா', 'த'], ['ம', 'ா', 'ர'], ['வ', 'ெ', 'ள'], ['a', 'm'], ['p', 'm'], ['அ', 'க'], ['ஆ', 'க'], ['ஏ', 'ப'], ['ஜ', 'ன'], ['ந', 'வ'], ['ந', 'ா'], ['ம', 'ா'], ['ம', 'ே'], ['வ', 'ா'], ['வ', 'ி'], [' '], ['\''], ['+'], [','], ['-'], ['.'], ['/'], [':'], [';'], ['@'], ['['], [']'], ['z'], ['|'], ['ஆ'], ['ம']] }

/-- internal/data/ta.go: `ta_LK_Locale`. -/
def ta_LKLang : LangData := ta_LKDict

/-- internal/data/ta.go: `ta_MY_Locale`. -/
def ta_MYLang : LangData := ta_MYDict

/-- internal/data/ta.go: `ta_SG_Locale`. -/
def ta_SGLang : LangData := ta_SGDict

/-- internal/data/te.go: `te_Locale`. -/
def teLang : LangData := { teDict with
  relativeRegexes :=
   [(.seqs [.grp 1 (.number), .lit [' ', 'స', 'ం', 'వ', 'త', 'స', 'ర', 'ం', ' ', 'క', 'ర', 'త', 'ం']], [.ref 1, .lit [' ', 'y', 'e', 'a', 'r', ' ', 'a', 'g', 'o']]),
    (.seqs [.grp 1 (.number), .lit [' ', 'స', 'ం', 'వ', 'త', 'స', 'ర', 'ల', ' ', 'క', 'ర', 'త', 'ం']], [.ref 1, .lit [' ', 'y', 'e', 'a', 'r', ' ', 'a', 'g', 'o']]),
    (.seqs [.grp 1 (.number), .lit [' ', 'గ', 'ం', 'ట', 'ల', ' ', 'క', 'ర', 'త', 'ం']], [.ref 1, .lit [' ', 'h', 'o', 'u', 'r', ' ', 'a', 'g', 'o']]),
    (.seqs [.grp 1 (.number), .lit [' ', 'న', 'మ', 'ష', 'ం', ' ', 'క', 'ర', 'త', 'ం']], [.ref 1, .lit [' ', 'm', 'i', 'n', 'u', 't', 'e', ' ', 'a', 'g', 'o']]),
    (.seqs [.grp 1 (.number), .lit [' ', 'న', 'మ', 'ష', 'ల', ' ', 'క', 'ర', 'త', 'ం']], [.ref 1, .lit [' ', 'm', 'i', 'n', 'u', 't', 'e', ' ', 'a', 'g', 'o']]),
    (.seqs [.grp 1 (.number), .lit [' ', 'ర', 'జ', 'ు', 'ల', ' ', 'క', 'ర', 'త', 'ం']], [.ref 1, .lit [' ', 'd', 'a', 'y', ' ', 'a', 'g', 'o']]),
    (.seqs [.grp 1 (.number), .lit [' ', 'స', 'క', 'న', 'ల', ' ', 'క', 'ర', 'త', 'ం']], [.ref 1, .lit [' ', 's', 'e', 'c', 'o', 'n', 'd', ' ', 'a', 'g', 'o']]),
    (.seqs [.grp 1 (.number), .lit [' ', 'స', 'క', 'న', 'ు', ' ', 'క', 'ర', 'త', 'ం']], [.ref 1, .lit [' ', 's', 'e', 'c', 'o', 'n', 'd', ' ', 'a', 'g', 'o']]),
    (.seqs [.grp 1 (.number), .lit [' ', 'గ', 'ం', 'ట', ' ', 'క', 'ర', 'త', 'ం']], [.ref 1, .lit [' ', 'h', 'o', 'u', 'r', ' ', 'a', 'g', 'o']]),
    (.seqs [.grp 1 (.number), .lit [' ', 'న', 'ల', 'ల', ' ', 'క', 'ర', 'త', 'ం']], [.ref 1, .lit [' ', 'm', 'o', 'n', 't', 'h', ' ', 'a', 'g', 'o']]),
    (.seqs [.grp 1 (.number), .lit [' ', 'ర', 'జ', 'ు', ' ', 'క', 'ర', 'త', 'ం']], [.ref 1, .lit [' ', 'd', 'a', 'y', ' ', 'a', 'g', 'o']]),
    (.seqs [.grp 1 (.number), .lit [' ', 'వ', 'ర', 'ం', ' ', 'క', 'ర', 'త', 'ం']], [.ref 1, .lit [' ', 'w', 'e', 'e', 'k', ' ', 'a', 'g', 'o']]),
    (.seqs [.grp 1 (.number), .lit [' ', 'వ', 'ర', 'ల', ' ', 'క', 'ర', 'త', 'ం']], [.ref 1, .lit [' ', 'w', 'e', 'e', 'k', ' ', 'a', 'g', 'o']]),
    (.seqs [.grp 1 (.number), .lit [' ', 'స', 'ం', 'వ', 'త', 'స', 'ర', 'ం', 'ల']], [.lit ['i', 'n', ' '], .ref 1, .lit [' ', 'y', 'e', 'a', 'r']]),
    (.seqs [.grp 1 (.number), .lit [' ', 'స', 'ం', 'వ', 'త', 'స', 'ర', 'ల', 'ల']], [.lit ['i', 'n', ' '], .ref 1, .lit [' ', 'y', 'e', 'a', 'r']]),
    (.seqs [.grp 1 (.number), .lit [' ', 'గ', 'ం', ' ', 'క', 'ర', 'త', 'ం']], [.ref 1, .lit [' ', 'h', 'o', 'u', 'r', ' ', 'a', 'g', 'o']]),
    (.seqs [.grp 1 (.number), .lit [' ', 'న', 'మ', ' ', 'క', 'ర', 'త', 'ం']], [.ref 1, .lit [' ', 'm', 'i', 'n', 'u', 't', 'e', ' ', 'a', 'g', 'o']]),
    (.seqs [.grp 1 (.number), .lit [' ', 'న', 'ల', ' ', 'క', 'ర', 'త', 'ం']], [.ref 1, .lit [' ', 'm', 'o', 'n', 't', 'h', ' ', 'a', 'g', 'o']]),
    (.seqs [.grp 1 (.number), .lit [' ', 'స', 'ం', ' ', 'క', 'ర', 'త', 'ం']], [.ref 1, .lit [' ', 'y', 'e', 'a', 'r', ' ', 'a', 'g', 'o']]),
    (.seqs [.grp 1 (.number), .lit [' ', 'స', 'క', ' ', 'క', 'ర', 'త', 'ం']], [.ref 1, .lit [' ', 's', 'e', 'c', 'o', 'n', 'd', ' ', 'a', 'g', 'o']]),
    (.seqs [.grp 1 (.number), .lit [' ', 'గ', 'ం', 'ట', 'ల', 'ల']], [.lit ['i', 'n', ' '], .ref 1, .lit [' ', 'h', 'o', 'u', 'r']]),
    (.seqs [.grp 1 (.number), .lit [' ', 'న', 'మ', 'ష', 'ం', 'ల']], [.lit ['i', 'n', ' '], .ref 1, .lit [' ', 'm', 'i', 'n', 'u', 't', 'e']]),
    (.seqs [.grp 1 (.number), .lit [' ', 'న', 'మ', 'ష', 'ల', 'ల']], [.lit ['i', 'n', ' '], .ref 1, .lit [' ', 'm', 'i', 'n', 'u', 't', 'e']]),
    (.seqs [.grp 1 (.number), .lit [' ', 'ర', 'జ', 'ు', 'ల', 'ల']], [.lit ['i', 'n', ' '], .ref 1, .lit [' ', 'd', 'a', 'y']]),
    (.seqs [.grp 1 (.number), .lit [' ', 'స', 'క', 'న', 'ల', 'ల']], [.lit ['i', 'n', ' '], .ref 1, .lit [' ', 's', 'e', 'c', 'o', 'n', 'd']]),
    (.seqs [.grp 1 (.number), .lit [' ', 'స', 'క', 'న', 'ు', 'ల']], [.lit ['i', 'n', ' '], .ref 1, .lit [' ', 's', 'e', 'c', 'o', 'n', 'd']]),
    (.seqs [.grp 1 (.number), .lit [' ', 'గ', 'ం', 'ట', 'ల']], [.lit ['i', 'n', ' '], .ref 1, .lit [' ', 'h', 'o', 'u', 'r']]),
    (.seqs [.grp 1 (.number), .lit [' ', 'న', 'ల', 'ల', 'ల']], [.lit ['i', 'n', ' '], .ref 1, .lit [' ', 'm', 'o', 'n', 't', 'h']]),
    (.seqs [.grp 1 (.number), .lit [' ', 'ర', 'జ', 'ు', 'ల']], [.lit ['i', 'n', ' '], .ref 1, .lit [' ', 'd', 'a', 'y']]),
    (.seqs [.grp 1 (.number), .lit [' ', 'వ', 'ర', 'ం', 'ల']], [.lit ['i', 'n', ' '], .ref 1, .lit [' ', 'w', 'e', 'e', 'k']]),
    (.seqs [.grp 1 (.number), .lit [' ', 'వ', 'ర', 'ల', 'ల']], [.lit ['i', 'n', ' '], .ref 1, .lit [' ', 'w', 'e', 'e', 'k']]),
    (.seqs [.grp 1 (.number), .lit [' ', 'స', 'క', ' ', 'ల']], [.lit ['i', 'n', ' '], .ref 1, .lit [' ', 's', 'e', 'c', 'o', 'n', 'd']]),
    (.seqs [.grp 1 (.number), .lit [' ', 'గ', 'ం', 'ల']], [.lit ['i', 'n', ' '], .ref 1, .lit [' ', 'h', 'o', 'u', 'r']]),
    (.seqs [.grp 1 (.number), .lit [' ', 'న', 'మ', 'ల']], [.lit ['i', 'n', ' '], .ref 1, .lit [' ', 'm', 'i', 'n', 'u', 't', 'e']]),
    (.seqs [.grp 1 (.number), .lit [' ', 'న', 'ల', 'ల']], [.lit ['i', 'n', ' '], .ref 1, .lit [' ', 'm', 'o', 'n', 't', 'h']]),
    (.seqs [.grp 1 (.number), .lit [' ', 'స', 'ం', 'ల']], [.lit ['i', 'n', ' '], .ref 1, .lit [' ', 'y', 'e', 'a', 'r']])],
  rxCombined := some (.seqs [.grp 1 (.alts [.bos, .cls true [.letter, .mark, .digit], .lit ['_']]), .grp 2 (.alts [.seqs [.number, .lit [' ', 'స', 'ం', 'వ', 'త', 'స', 'ర', 'ం', ' ', 'క', 'ర', 'త', 'ం']], .seqs [.number, .lit [' ', 'స', 'ం', 'వ', 'త', 'స', 'ర', 'ల', ' ', 'క', 'ర', 'త', 'ం']], .seqs [.number, .lit [' ', 'గ', 'ం', 'ట', 'ల', ' ', 'క', 'ర', 'త', 'ం']], .seqs [.number, .lit [' ', 'న', 'మ', 'ష', 'ం', ' ', 'క', 'ర', 'త', 'ం']], .seqs [.number, .lit [' ', 'న', 'మ', 'ష', 'ల', ' ', 'క', 'ర', 'త', 'ం']], .seqs [.number, .lit [' ', 'ర', 'జ', 'ు', 'ల', ' ', 'క', 'ర', 'త', 'ం']], .seqs [.number, .lit [' ', 'స', 'క', 'న', 'ల', ' ', 'క', 'ర', 'త', 'ం']], .seqs [.number, .lit [' ', 'స', 'క', 'న', 'ు', ' ', 'క', 'ర', 'త', 'ం']], .seqs [.number, .lit [' ', 'గ', 'ం', 'ట', ' ', 'క', 'ర', 'త', 'ం']], .seqs [.number, .lit [' ', 'న', 'ల', 'ల', ' ', 'క', 'ర', 'త', 'ం']], .seqs [.number, .lit [' ', 'ర', 'జ', 'ు', ' ', 'క', 'ర', 'త', 'ం']], .seqs [.number, .lit [' ', 'వ', 'ర', 'ం', ' ', 'క', 'ర', 'త', 'ం']], .seqs [.number, .lit [' ', 'వ', 'ర', 'ల', ' ', 'క', 'ర', 'త', 'ం']], .seqs [.number, .lit [' ', 'స', 'ం', 'వ', 'త', 'స', 'ర', 'ం', 'ల']], .seqs [.number, .lit [' ', 'స', 'ం', 'వ', 'త', 'స', 'ర', 'ల', 'ల']], .seqs [.number, .lit [' ', 'గ', 'ం', ' ', 'క', 'ర', 'త', 'ం']], .seqs [.number, .lit [' ', 'న', 'మ', ' ', 'క', 'ర', 'త', 'ం']], .seqs [.number, .lit [' ', 'న', 'ల', ' ', 'క', 'ర', 'త', 'ం']], .seqs [.number, .lit [' ', 'స', 'ం', ' ', 'క', 'ర', 'త', 'ం']], .seqs [.number, .lit [' ', 'స', 'క', ' ', 'క', 'ర', 'త', 'ం']], .seqs [.number, .lit [' ', 'గ', 'ం', 'ట', 'ల', 'ల']], .seqs [.number, .lit [' ', 'న', 'మ', 'ష', 'ం', 'ల']], .seqs [.number, .lit [' ', 'న', 'మ', 'ష', 'ల', 'ల']], .seqs [.number, .lit [' ', 'ర', 'జ', 'ు', 'ల', 'ల']], .seqs [.number, .lit [' ', 'స', 'క', 'న', 'ల', 'ల']], .seqs [.number, .lit [' ', 'స', 'క', 'న', 'ు', 'ల']], .seqs [.number, .lit [' ', 'గ', 'ం', 'ట', 'ల']], .seqs [.number, .lit [' ', 'న', 'ల', 'ల', 'ల']], .seqs [.number, .lit [' ', 'ర', 'జ', 'ు', 'ల']], .seqs [.number, .lit [' ', 'వ', 'ర', 'ం', 'ల']], .seqs [.number, .lit [' ', 'వ', 'ర', 'ల', 'ల']], .seqs [.number, .lit [' ', 'స', 'క', ' ', 'ల']], .seqs [.number, .lit [' ', 'గ', 'ం', 'ల']], .seqs [.number, .lit [' ', 'న', 'మ', 'ల']], .seqs [.number, .lit [' ', 'న', 'ల', 'ల']], .seqs [.number, .lit [' ', 'స', 'ం', 'ల']]]), .grp 3 (.alts [.eos, .cls true [.letter, .mark, .digit], .lit ['_']])], 3),
  rxExact := some (.seqs [.bos, .grp 1 (.alts [.seqs [.number, .lit [' ', 'స', 'ం', 'వ', 'త', 'స', 'ర', 'ం', ' ', 'క', 'ర', 'త', 'ం']], .seqs [.number, .lit [' ', 'స', 'ం', 'వ', 'త', 'స', 'ర', 'ల', ' ', 'క', 'ర', 'త', 'ం']], .seqs [.number, .lit [' ', 'గ', 'ం', 'ట', 'ల', ' ', 'క', 'ర', 'త', 'ం']], .seqs [.number, .lit [' ', 'న', 'మ', 'ష', 'ం', ' ', 'క', 'ర', 'త', 'ం']], .seqs [.number, .lit [' ', 'న', 'మ', 'ష', 'ల', ' ', 'క', 'ర', 'త', 'ం']], .seqs [.number, .lit [' ', 'ర', 'జ', 'ు', 'ల', ' ', 'క', 'ర', 'త', 'ం']], .seqs [.number, .lit [' ', 'స', 'క', 'న', 'ల', ' ', 'క', 'ర', 'త', 'ం']], .seqs [.number, .lit [' ', 'స', 'క', 'న', 'ు', ' ', 'క', 'ర', 'త', 'ం']], .seqs [.number, .lit [' ', 'గ', 'ం', 'ట', ' ', 'క', 'ర', 'త', 'ం']], .seqs [.number, .lit [' ', 'న', 'ల', 'ల', ' ', 'క', 'ర', 'త', 'ం']], .seqs [.number, .lit [' ', 'ర', 'జ', 'ు', ' ', 'క', 'ర', 'త', 'ం']], .seqs [.number, .lit [' ', 'వ', 'ర', 'ం', ' ', 'క', 'ర', 'త', 'ం']], .seqs [.number, .lit [' ', 'వ', 'ర', 'ల', ' ', 'క', 'ర', 'త', 'ం']], .seqs [.number, .lit [' ', 'స', 'ం', 'వ', 'త', 'స', 'ర', 'ం', 'ల']], .seqs [.number, .lit [' ', 'స', 'ం', 'వ', 'త', 'స', 'ర', 'ల', 'ల']], .seqs [.number, .lit [' ', 'గ', 'ం', ' ', 'క', 'ర', 'త', 'ం']], .seqs [.number, .lit [' ', 'న', 'మ', ' ', 'క', 'ర', 'త', 'ం']], .seqs [.number, .lit [' ', 'న', 'ల', ' ', 'క', 'ర', 'త', 'ం']], .seqs [.number, .lit [' ', 'స', 'ం', ' ', 'క', 'ర', 'త', 'ం']], .seqs [.number, .lit [' ', 'స', 'క', ' ', 'క', 'ర', 'త', 'ం']], .seqs [.number, .lit [' ', 'గ', 'ం', 'ట', 'ల', 'ల']], .seqs [.number, .lit [' ', 'న', 'మ', 'ష', 'ం', 'ల']], .seqs [.number, .lit [' ', 'న', 'మ', 'ష', 'ల', 'ల']], .seqs [.number, .lit [' ', 'ర', 'జ', 'ు', 'ల', 'ల']], .seqs [.number, .lit [' ', 'స', 'క', 'న', 'ల', 'ల']], .seqs [.number, .lit [' ', 'స', 'క', 'న', 'ు', 'ల']], .seqs [.number, .lit [' ', 'గ', 'ం', 'ట', 'ల']], .seqs [.number, .lit [' ', 'న', 'ల', 'ల', 'ల']], .seqs [.number, .lit [' ', 'ర', 'జ', 'ు', 'ల']], .seqs [.number, .lit [' ', 'వ', 'ర', 'ం', 'ల']], .seqs [.number, .lit [' ', 'వ', 'ర', 'ల', 'ల']], .seqs [.number, .lit [' ', 'స', 'క', ' ', 'ల']], .seqs [.number, .lit [' ', 'గ', 'ం', 'ల']], .seqs [.number, .lit [' ', 'న', 'మ', 'ల']], .seqs [.number, .lit [' ', 'న', 'ల', 'ల']], .seqs [.number, .lit [' ', 'స', 'ం', 'ల']]]), .eos]),
  knownWords :=
   [['త', 'ద', 'ు', 'ప', 'ర', ' ', 'స', 'ం', 'వ', 'త', 'స', 'ర', 'ం'], ['గ', 'త', ' ', 'స', 'ం', 'వ', 'త', 'స', 'ర', 'ం'], ['ఈ', ' ', 'స', 'ం', 'వ', 'త', 'స', 'ర', 'ం'], ['త', 'ద', 'ు', 'ప', 'ర', ' ', 'వ', 'ర', 'ం'], ['త', 'ద', 'ు', 'ప', 'ర', ' ', 'న', 'ల'], ['గ', 'ు', 'ర', 'ు', 'వ', 'ర', 'ం'], ['ప', 'ర', 'స', 'త', 'ు', 'త', 'ం'], ['మ', 'ం', 'గ', 'ళ', 'వ', 'ర', 'ం'], ['శ', 'ు', 'క', 'ర', 'వ', 'ర', 'ం'], ['స', 'ం', 'వ', 'త', 'స', 'ర', 'ం'], ['ఈ', ' ', 'న', 'మ', 'ష', 'ం'], ['గ', 'త', ' ', 'వ', 'ర', 'ం'], ['బ', 'ు', 'ధ', 'వ', 'ర', 'ం'], ['స', 'ప', 'ట', 'ం', 'బ', 'ర'], ['అ', 'క', 'ట', 'బ', 'ర'], ['ఆ', 'గ', 'స', 'ట', 'ు'], ['ఆ', 'ద', 'వ', 'ర', 'ం'], ['ఈ', ' ', 'గ', 'ం', 'ట'], ['ఈ', ' ', 'ర', 'జ', 'ు'], ['ఈ', ' ', 'వ', 'ర', 'ం'], ['గ', 'త', ' ', 'న', 'ల'], ['డ', 'స', 'ం', 'బ', 'ర'], ['న', 'మ', 'ష', 'మ', 'ు'], ['న', 'వ', 'ం', 'బ', 'ర'], ['ఫ', 'బ', 'ర', 'వ', 'ర'], ['శ', 'న', 'వ', 'ర', 'ం'], ['స', 'మ', 'వ', 'ర', 'ం'], ['ఈ', ' ', 'న', 'ల'], ['ఏ', 'ప', 'ర', 'ల'], ['గ', 'ు', 'ర', 'ు'], ['జ', 'న', 'వ', 'ర'], ['మ', 'ం', 'గ', 'ళ'], ['వ', 'ర', 'మ', 'ు'], ['శ', 'ు', 'క', 'ర'], ['స', 'క', 'న', 'ు'], ['స', 'ప', 'ట', 'ం'], ['g', 'm', 't'], ['u', 't', 'c'], ['అ', 'క', 'ట'], ['ఏ', 'ప', 'ర'], ['గ', 'ం', 'ట'], ['జ', 'ు', 'ల'], ['జ', 'ూ', 'న'], ['డ', 'స', 'ం'], ['ద', 'న', 'ం'], ['న', 'న', 'న'], ['న', 'వ', 'ం'], ['ఫ', 'బ', 'ర'], ['బ', 'ు', 'ధ'], ['మ', 'ర', 'చ'], ['ర', 'ప', 'ు'], ['a', 'm'], ['p', 'm'], ['ఆ', 'గ'], ['ఆ', 'ద'], ['గ', 'ం'], ['జ', 'న'], ['న', 'మ'], ['న', 'ల'], ['శ', 'న'], ['స', 'ం'], ['స', 'క'], ['స', 'మ'], [' '], ['\''], ['+'], [','], ['-'], ['.'], ['/'], [':'], [';'], ['@'], ['['], [']'], ['z'], ['|'], ['ద'], ['న'], ['మ'], ['వ']] }

/-- internal/data/teo.go: `teo_Locale`. -/
def teoLang : LangData := { teoDict with
  knownWords :=
   [['o', 'm', 'o', 'd', 'o', 'k', '\'', 'k', 'i', 'n', 'g', '\'', 'o', 'l'], ['n', 'a', 'k', 'a', 'e', 'b', 'a', 'r', 'a', 's', 'a'], ['o', 's', 'o', 'k', 'o', 's', 'o', 'k', 'o', 'm', 'a'], ['t', 'h', 'i', 's', ' ', 'm', 'i', 'n', 'u', 't', 'e'], ['l', 'a', 's', 't', ' ', 'm', 'o', 'n', 't', 'h'], ['n', 'a', 'k', 'a', 's', 'a', 'b', 'i', 't', 'i'], ['n', 'a', 'k', 'a', 'u', 'n', 'g', '\'', 'o', 'n'], ['n', 'e', 'x', 't', ' ', 'm', 'o', 'n', 't', 'h'], ['t', 'h', 'i', 's', ' ', 'm', 'o', 'n', 't', 'h'], ['l', 'a', 's', 't', ' ', 'w', 'e', 'e', 'k'], ['l', 'a', 's', 't', ' ', 'y', 'e', 'a', 'r'], ['n', 'a', 'k', 'a', 'e', 'j', 'u', 'm', 'a'], ['n', 'e', 'x', 't', ' ', 'w', 'e', 'e', 'k'], ['n', 'e', 'x', 't', ' ', 'y', 'e', 'a', 'r'], ['t', 'a', 'p', 'a', 'r', 'a', 'c', 'h', 'u'], ['t', 'h', 'i', 's', ' ', 'h', 'o', 'u', 'r'], ['t', 'h', 'i', 's', ' ', 'w', 'e', 'e', 'k'], ['t', 'h', 'i', 's', ' ', 'y', 'e', 'a', 'r'], ['i', 's', 'e', 'k', 'o', 'n', 'd', 'e'], ['n', 'a', 'k', 'a', 'k', 'a', 'n', 'y'], ['o', 'd', 'u', 'n', 'g', '\'', 'e', 'l'], ['i', 'd', 'a', 'k', 'i', 'k', 'a'], ['n', 'a', 'k', 'a', 'a', 'r', 'e'], ['n', 'a', 'k', 'a', 'u', 'n', 'i'], ['o', 'k', 'w', 'a', 'm', 'g', '\''], ['a', 'p', 'a', 'r', 'a', 'n'], ['e', 'b', 'o', 'n', 'g', 'i'], ['o', 'l', 'a', 'b', 'o', 'r'], ['o', 'm', 'a', 'r', 'u', 'k'], ['o', 'p', 'e', 'd', 'e', 'l'], ['o', 't', 'i', 'b', 'a', 'r'], ['e', 'w', 'i', 'k', 'i'], ['o', 'j', 'o', 'l', 'a'], ['o', 'r', 'a', 'r', 'a'], ['e', 'k', 'a', 'n'], ['e', 'l', 'a', 'p'], ['e', 's', 'a', 'a'], ['j', 'a', 'a', 'n'], ['l', 'o', 'l', 'o'], ['o', 'm', 'u', 'k'], ['o', 'p', 'o', 'o'], ['a', 'a', 'r'], ['b', 'a', 'r'], ['d', 'u', 'n'], ['g', 'm', 't'], ['j', 'o', 'l'], ['j', 'u', 'm'], ['k', 'a', 'n'], ['k', 'w', 'a'], ['l', 'a', 'b'], ['m', 'a', 'r'], ['m', 'o', 'd'], ['m', 'o', 'i'], ['m', 'u', 'k'], ['n', 'o', 'w'], ['p', 'e', 'd'], ['p', 'o', 'o'], ['r', 'a', 'r'], ['s', 'a', 'b'], ['s', 'o', 'k'], ['t', 'i', 'b'], ['u', 'n', 'g'], ['u', 'n', 'i'], ['u', 't', 'c'], ['a', 'm'], ['p', 'm'], [' '], ['\''], ['+'], [','], ['-'], ['.'], ['/'], [':'], [';'], ['@'], ['['], [']'], ['z'], ['|']] }

/-- internal/data/teo.go: `teo_KE_Locale`. -/
def teo_KELang : LangData := teo_KEDict

/-- internal/data/th.go: `th_Locale`. -/
def thLang : LangData := { thDict with
  abbreviations :=
   [['น']],
  simplifications :=
   [(.seqs [.grp 1 (.alts [.bos, .noWord]), .lit ['ว', 'น', 'น'], .grp 2 (.alts [.eos, .noWord])], [.ref 1, .lit ['0', ' ', 'ว', 'น'], .ref 2]),
    (.seqs [.grp 1 (.alts [.bos, .noWord]), .lit ['เ', 'ม', 'อ', 'ว', 'า', 'น', 'น'], .grp 2 (.alts [.eos, .noWord])], [.ref 1, .lit ['1', ' ', 'ว', 'น'], .ref 2]),
    (.seqs [.grp 1 (.alts [.bos, .noWord]), .lit ['1', ' ', 'ว', 'น', 'ท', 'แ', 'ล', 'ว'], .grp 2 (.alts [.eos, .noWord])], [.ref 1, .lit ['1', ' ', 'ว', 'น'], .ref 2]),
    (.seqs [.grp 1 (.alts [.bos, .noWord]), .lit ['เ', 'ม', 'อ', 'ว', 'า', 'น', 'ซ', 'น'], .grp 2 (.alts [.eos, .noWord])], [.ref 1, .lit ['2', ' ', 'ว', 'น'], .ref 2]),
    (.seqs [.grp 1 (.alts [.bos, .noWord]), .lit ['2', ' ', 'ว', 'น', 'ท', 'แ', 'ล', 'ว'], .grp 2 (.alts [.eos, .noWord])], [.ref 1, .lit ['2', ' ', 'ว', 'น'], .ref 2]),
    (.seqs [.grp 1 (.alts [.bos, .noWord]), .lit ['เ', 'ม', 'อ', 'ส', 'ก', 'ค', 'ร', 'น'], .grp 2 (.alts [.eos, .noWord])], [.ref 1, .lit ['0', ' ', 'ว', 'น', 'า', 'ท'], .ref 2])],
  relativeRegexes :=
   [(.seqs [.grp 1 (.number), .lit [' ', 'ช', 'ว', 'โ', 'ม', 'ง', 'ท', 'ผ', 'า', 'น', 'ม', 'า']], [.ref 1, .lit [' ', 'h', 'o', 'u', 'r', ' ', 'a', 'g', 'o']]),
    (.seqs [.grp 1 (.number), .lit [' ', 'ส', 'ป', 'ด', 'า', 'ห', 'ท', 'ผ', 'า', 'น', 'ม', 'า']], [.ref 1, .lit [' ', 'w', 'e', 'e', 'k', ' ', 'a', 'g', 'o']]),
    (.seqs [.grp 1 (.number), .lit [' ', 'ว', 'น', 'า', 'ท', 'ท', 'ผ', 'า', 'น', 'ม', 'า']], [.ref 1, .lit [' ', 's', 'e', 'c', 'o', 'n', 'd', ' ', 'a', 'g', 'o']]),
    (.seqs [.grp 1 (.number), .lit [' ', 'เ', 'ด', 'อ', 'น', 'ท', 'ผ', 'า', 'น', 'ม', 'า']], [.ref 1, .lit [' ', 'm', 'o', 'n', 't', 'h', ' ', 'a', 'g', 'o']]),
    (.seqs [.lit ['ใ', 'น', 'อ', 'ก', ' '], .grp 1 (.number), .lit [' ', 'ช', 'ว', 'โ', 'ม', 'ง']], [.lit ['i', 'n', ' '], .ref 1, .lit [' ', 'h', 'o', 'u', 'r']]),
    (.seqs [.lit ['ใ', 'น', 'อ', 'ก', ' '], .grp 1 (.number), .lit [' ', 'ส', 'ป', 'ด', 'า', 'ห']], [.lit ['i', 'n', ' '], .ref 1, .lit [' ', 'w', 'e', 'e', 'k']]),
    (.seqs [.grp 1 (.number), .lit [' ', 'น', 'า', 'ท', 'ท', 'ผ', 'า', 'น', 'ม', 'า']], [.ref 1, .lit [' ', 'm', 'i', 'n', 'u', 't', 'e', ' ', 'a', 'g', 'o']]),
    (.seqs [.grp 1 (.number), .lit [' ', 'ส', 'ป', 'ด', 'า', 'ห', 'ท', 'แ', 'ล', 'ว']], [.ref 1, .lit [' ', 'w', 'e', 'e', 'k', ' ', 'a', 'g', 'o']]),
    (.seqs [.lit ['ใ', 'น', 'อ', 'ก', ' '], .grp 1 (.number), .lit [' ', 'ว', 'น', 'า', 'ท']], [.lit ['i', 'n', ' '], .ref 1, .lit [' ', 's', 'e', 'c', 'o', 'n', 'd']]),
    (.seqs [.lit ['ใ', 'น', 'อ', 'ก', ' '], .grp 1 (.number), .lit [' ', 'เ', 'ด', 'อ', 'น']], [.lit ['i', 'n', ' '], .ref 1, .lit [' ', 'm', 'o', 'n', 't', 'h']]),
    (.seqs [.grp 1 (.number), .lit [' ', 'ว', 'น', 'ท', 'ผ', 'า', 'น', 'ม', 'า']], [.ref 1, .lit [' ', 'd', 'a', 'y', ' ', 'a', 'g', 'o']]),
    (.seqs [.grp 1 (.number), .lit [' ', 'ว', 'น', 'า', 'ท', 'ท', 'แ', 'ล', 'ว']], [.ref 1, .lit [' ', 's', 'e', 'c', 'o', 'n', 'd', ' ', 'a', 'g', 'o']]),
    (.seqs [.grp 1 (.number), .lit [' ', 'เ', 'ด', 'อ', 'น', 'ท', 'แ', 'ล', 'ว']], [.ref 1, .lit [' ', 'm', 'o', 'n', 't', 'h', ' ', 'a', 'g', 'o']]),
    (.seqs [.lit ['ใ', 'น', ' '], .grp 1 (.number), .lit [' ', 'ส', 'ป', 'ด', 'า', 'ห']], [.lit ['i', 'n', ' '], .ref 1, .lit [' ', 'w', 'e', 'e', 'k']]),
    (.seqs [.lit ['ใ', 'น', 'อ', 'ก', ' '], .grp 1 (.number), .lit [' ', 'น', 'า', 'ท']], [.lit ['i', 'n', ' '], .ref 1, .lit [' ', 'm', 'i', 'n', 'u', 't', 'e']]),
    (.seqs [.grp 1 (.number), .lit [' ', 'ช', 'ม', ' ', 'ท', 'แ', 'ล', 'ว']], [.ref 1, .lit [' ', 'h', 'o', 'u', 'r', ' ', 'a', 'g', 'o']]),
    (.seqs [.grp 1 (.number), .lit [' ', 'น', 'า', 'ท', 'ท', 'แ', 'ล', 'ว']], [.ref 1, .lit [' ', 'm', 'i', 'n', 'u', 't', 'e', ' ', 'a', 'g', 'o']]),
    (.seqs [.lit ['ใ', 'น', ' '], .grp 1 (.number), .lit [' ', 'ว', 'น', 'า', 'ท']], [.lit ['i', 'n', ' '], .ref 1, .lit [' ', 's', 'e', 'c', 'o', 'n', 'd']]),
    (.seqs [.lit ['ใ', 'น', ' '], .grp 1 (.number), .lit [' ', 'เ', 'ด', 'อ', 'น']], [.lit ['i', 'n', ' '], .ref 1, .lit [' ', 'm', 'o', 'n', 't', 'h']]),
    (.seqs [.lit ['ใ', 'น', 'อ', 'ก', ' '], .grp 1 (.number), .lit [' ', 'ว', 'น']], [.lit ['i', 'n', ' '], .ref 1, .lit [' ', 'd', 'a', 'y']]),
    (.seqs [.grp 1 (.number), .lit [' ', 'ว', 'น', 'ท', 'แ', 'ล', 'ว']], [.ref 1, .lit [' ', 'd', 'a', 'y', ' ', 'a', 'g', 'o']]),
    (.seqs [.lit ['ใ', 'น', ' '], .grp 1 (.number), .lit [' ', 'น', 'า', 'ท']], [.lit ['i', 'n', ' '], .ref 1, .lit [' ', 'm', 'i', 'n', 'u', 't', 'e']]),
    (.seqs [.lit ['ใ', 'น', 'อ', 'ก', ' '], .grp 1 (.number), .lit [' ', 'ป']], [.lit ['i', 'n', ' '], .ref 1, .lit [' ', 'y', 'e', 'a', 'r']]),
    (.seqs [.grp 1 (.number), .lit [' ', 'ป', 'ท', 'แ', 'ล', 'ว']], [.ref 1, .lit [' ', 'y', 'e', 'a', 'r', ' ', 'a', 'g', 'o']]),
    (.seqs [.lit ['ใ', 'น', ' '], .grp 1 (.number), .lit [' ', 'ช', 'ม']], [.lit ['i', 'n', ' '], .ref 1, .lit [' ', 'h', 'o', 'u', 'r']]),
    (.seqs [.lit ['ใ', 'น', ' '], .grp 1 (.number), .lit [' ', 'ว', 'น']], [.lit ['i', 'n', ' '], .ref 1, .lit [' ', 'd', 'a', 'y']]),
    (.seqs [.lit ['ใ', 'น', ' '], .grp 1 (.number), .lit [' ', 'ป']], [.lit ['i', 'n', ' '], .ref 1, .lit [' ', 'y', 'e', 'a', 'r']])],
  rxCombined := some (.seqs [.grp 1 (.alts [.bos, .cls true [.letter, .mark, .digit], .lit ['_']]), .grp 2 (.alts [.seqs [.number, .lit [' ', 'ช', 'ว', 'โ', 'ม', 'ง', 'ท', 'ผ', 'า', 'น', 'ม', 'า']], .seqs [.number, .lit [' ', 'ส', 'ป', 'ด', 'า', 'ห', 'ท', 'ผ', 'า', 'น', 'ม', 'า']], .seqs [.number, .lit [' ', 'ว', 'น', 'า', 'ท', 'ท', 'ผ', 'า', 'น', 'ม', 'า']], .seqs [.number, .lit [' ', 'เ', 'ด', 'อ', 'น', 'ท', 'ผ', 'า', 'น', 'ม', 'า']], .seqs [.lit ['ใ', 'น', 'อ', 'ก', ' '], .number, .lit [' ', 'ช', 'ว', 'โ', 'ม', 'ง']], .seqs [.lit ['ใ', 'น', 'อ', 'ก', ' '], .number, .lit [' ', 'ส', 'ป', 'ด', 'า', 'ห']], .seqs [.number, .lit [' ', 'น', 'า', 'ท', 'ท', 'ผ', 'า', 'น', 'ม', 'า']], .seqs [.number, .lit [' ', 'ส', 'ป', 'ด', 'า', 'ห', 'ท', 'แ', 'ล', 'ว']], .seqs [.lit ['ใ', 'น', 'อ', 'ก', ' '], .number, .lit [' ', 'ว', 'น', 'า', 'ท']], .seqs [.lit ['ใ', 'น', 'อ', 'ก', ' '], .number, .lit [' ', 'เ', 'ด', 'อ', 'น']], .seqs [.number, .lit [' ', 'ว', 'น', 'ท', 'ผ', 'า', 'น', 'ม', 'า']], .seqs [.number, .lit [' ', 'ว', 'น', 'า', 'ท', 'ท', 'แ', 'ล', 'ว']], .seqs [.number, .lit [' ', 'เ', 'ด', 'อ', 'น', 'ท', 'แ', 'ล', 'ว']], .seqs [.lit ['ใ', 'น', ' '], .number, .lit [' ', 'ส', 'ป', 'ด', 'า', 'ห']], .seqs [.lit ['ใ', 'น', 'อ', 'ก', ' '], .number, .lit [' ', 'น', 'า', 'ท']], .seqs [.number, .lit [' ', 'ช', 'ม', ' ', 'ท', 'แ', 'ล', 'ว']], .seqs [.number, .lit [' ', 'น', 'า', 'ท', 'ท', 'แ', 'ล', 'ว']], .seqs [.lit ['ใ', 'น', ' '], .number, .lit [' ', 'ว', 'น', 'า', 'ท']], .seqs [.lit ['ใ', 'น', ' '], .number, .lit [' ', 'เ', 'ด', 'อ', 'น']], .seqs [.lit ['ใ', 'น', 'อ', 'ก', ' '], .number, .lit [' ', 'ว', 'น']], .seqs [.number, .lit [' ', 'ว', 'น', 'ท', 'แ', 'ล', 'ว']], .seqs [.lit ['ใ', 'น', ' '], .number, .lit [' ', 'น', 'า', 'ท']], .seqs [.lit ['ใ', 'น', 'อ', 'ก', ' '], .number, .lit [' ', 'ป']], .seqs [.number, .lit [' ', 'ป', 'ท', 'แ', 'ล', 'ว']], .seqs [.lit ['ใ', 'น', ' '], .number, .lit [' ', 'ช', 'ม']], .seqs [.lit ['ใ', 'น', ' '], .number, .lit [' ', 'ว', 'น']], .seqs [.lit ['ใ', 'น', ' '], .number, .lit [' ', 'ป']]]), .grp 3 (.alts [.eos, .cls true [.letter, .mark, .digit], .lit ['_']])], 3),
  rxExact := some (.seqs [.bos, .grp 1 (.alts [.seqs [.number, .lit [' ', 'ช', 'ว', 'โ', 'ม', 'ง', 'ท', 'ผ', 'า', 'น', 'ม', 'า']], .seqs [.number, .lit [' ', 'ส', 'ป', 'ด', 'า', 'ห', 'ท', 'ผ', 'า', 'น', 'ม', 'า']], .seqs [.number, .lit [' ', 'ว', 'น', 'า', 'ท', 'ท', 'ผ', 'า', 'น', 'ม', 'า']], .seqs [.number, .lit [' ', 'เ', 'ด', 'อ', 'น', 'ท', 'ผ', 'า', 'น', 'ม', 'า']], .seqs [.lit ['ใ', 'น', 'อ', 'ก', ' '], .number, .lit [' ', 'ช', 'ว', 'โ', 'ม', 'ง']], .seqs [.lit ['ใ', 'น', 'อ', 'ก', ' '], .number, .lit [' ', 'ส', 'ป', 'ด', 'า', 'ห']], .seqs [.number, .lit [' ', 'น', 'า', 'ท', 'ท', 'ผ', 'า', 'น', 'ม', 'า']], .seqs [.number, .lit [' ', 'ส', 'ป', 'ด', 'า', 'ห', 'ท', 'แ', 'ล', 'ว']], .seqs [.lit ['ใ', 'น', 'อ', 'ก', ' '], .number, .lit [' ', 'ว', 'น', 'า', 'ท']], .seqs [.lit ['ใ', 'น', 'อ', 'ก', ' '], .number, .lit [' ', 'เ', 'ด', 'อ', 'น']], .seqs [.number, .lit [' ', 'ว', 'น', 'ท', 'ผ', 'า', 'น', 'ม', 'า']], .seqs [.number, .lit [' ', 'ว', 'น', 'า', 'ท', 'ท', 'แ', 'ล', 'ว']], .seqs [.number, .lit [' ', 'เ', 'ด', 'อ', 'น', 'ท', 'แ', 'ล', 'ว']], .seqs [.lit ['ใ', 'น', ' '], .number, .lit [' ', 'ส', 'ป', 'ด', 'า', 'ห']], .seqs [.lit ['ใ', 'น', 'อ', 'ก', ' '], .number, .lit [' ', 'น', 'า', 'ท']], .seqs [.number, .lit [' ', 'ช', 'ม', ' ', 'ท', 'แ', 'ล', 'ว']], .seqs [.number, .lit [' ', 'น', 'า', 'ท', 'ท', 'แ', 'ล', 'ว']], .seqs [.lit ['ใ', 'น', ' '], .number, .lit [' ', 'ว', 'น', 'า', 'ท']], .seqs [.lit ['ใ', 'น', ' '], .number, .lit [' ', 'เ', 'ด', 'อ', 'น']], .seqs [.lit ['ใ', 'น', 'อ', 'ก', ' '], .number, .lit [' ', 'ว', 'น']], .seqs [.number, .lit [' ', 'ว', 'น', 'ท', 'แ', 'ล', 'ว']], .seqs [.lit ['ใ', 'น', ' '], .number, .lit [' ', 'น', 'า', 'ท']], .seqs [.lit ['ใ', 'น', 'อ', 'ก', ' '], .number, .lit [' ', 'ป']], .seqs [.number, .lit [' ', 'ป', 'ท', 'แ', 'ล', 'ว']], .seqs [.lit ['ใ', 'น', ' '], .number, .lit [' ', 'ช', 'ม']], .seqs [.lit ['ใ', 'น', ' '], .number, .lit [' ', 'ว', 'น']], .seqs [.lit ['ใ', 'น', ' '], .number, .lit [' ', 'ป']]]), .eos]),
  knownWords :=
   [['เ', 'ด', 'อ', 'น', 'พ', 'ฤ', 'ศ', 'จ', 'ก', 'า', 'ย', 'น'], ['เ', 'ด', 'อ', 'น', 'ก', 'ม', 'ภ', 'า', 'พ', 'น', 'ธ'], ['เ', 'ด', 'อ', 'น', 'ก', 'ร', 'ก', 'ฏ', 'า', 'ค', 'ม'], ['เ', 'ด', 'อ', 'น', 'พ', 'ฤ', 'ษ', 'ภ', 'า', 'ค', 'ม'], ['เ', 'ด', 'อ', 'น', 'ก', 'น', 'ย', 'า', 'ย', 'น'], ['เ', 'ด', 'อ', 'น', 'ธ', 'น', 'ว', 'า', 'ค', 'ม'], ['เ', 'ด', 'อ', 'น', 'ม', 'ก', 'ร', 'า', 'ค', 'ม'], ['เ', 'ด', 'อ', 'น', 'ม', 'ถ', 'น', 'า', 'ย', 'น'], ['เ', 'ด', 'อ', 'น', 'ส', 'ง', 'ห', 'า', 'ค', 'ม'], ['เ', 'ด', 'อ', 'น', 'เ', 'ม', 'ษ', 'า', 'ย', 'น'], ['ว', 'น', 'พ', 'ฤ', 'ห', 'ส', 'บ', 'ด', 'ท'], ['ส', 'ป', 'ด', 'า', 'ห', 'ท', 'แ', 'ล', 'ว'], ['เ', 'ด', 'อ', 'น', 'ต', 'ล', 'า', 'ค', 'ม'], ['เ', 'ด', 'อ', 'น', 'ม', 'น', 'า', 'ค', 'ม'], ['พ', 'ฤ', 'ศ', 'จ', 'ก', 'า', 'ย', 'น'], ['ว', 'น', 'พ', 'ฤ', 'ห', 'ส', 'บ', 'ด'], ['ว', 'น', 'อ', 'ง', 'ค', 'า', 'ร', 'ท'], ['ว', 'น', 'อ', 'า', 'ท', 'ต', 'ย', 'ท'], ['ส', 'ป', 'ด', 'า', 'ห', 'ห', 'น', 'า'], ['เ', 'ด', 'อ', 'น', 'ท', 'แ', 'ล', 'ว'], ['ก', 'ม', 'ภ', 'า', 'พ', 'น', 'ธ'], ['ก', 'ร', 'ก', 'ฎ', 'า', 'ค', 'ม'], ['ก', 'อ', 'น', 'เ', 'ท', 'ย', 'ง'], ['พ', 'ฤ', 'ษ', 'ภ', 'า', 'ค', 'ม'], ['ว', 'น', 'จ', 'น', 'ท', 'ร', 'ท'], ['ว', 'น', 'อ', 'ง', 'ค', 'า', 'ร'], ['ว', 'น', 'อ', 'า', 'ท', 'ต', 'ย'], ['ว', 'น', 'เ', 'ส', 'า', 'ร', 'ท'], ['ห', 'ล', 'ง', 'เ', 'ท', 'ย', 'ง'], ['เ', 'ด', 'อ', 'น', 'ห', 'น', 'า'], ['ก', 'น', 'ย', 'า', 'ย', 'น'], ['ช', 'ว', 'โ', 'ม', 'ง', 'น'], ['ธ', 'น', 'ว', 'า', 'ค', 'ม'], ['พ', 'ฤ', 'ห', 'ส', 'บ', 'ด'], ['ม', 'ก', 'ร', 'า', 'ค', 'ม'], ['ม', 'ถ', 'น', 'า', 'ย', 'น'], ['ว', 'น', 'จ', 'น', 'ท', 'ร'], ['ว', 'น', 'ศ', 'ก', 'ร', 'ท'], ['ว', 'น', 'เ', 'ส', 'า', 'ร'], ['ส', 'ง', 'ห', 'า', 'ค', 'ม'], ['ส', 'ป', 'ด', 'า', 'ห', 'น'], ['เ', 'ม', 'ษ', 'า', 'ย', 'น'], ['เ', 'ม', 'อ', 'ว', 'า', 'น'], ['ก', 'ร', 'ก', 'ฎ', 'า'], ['ช', 'ว', 'โ', 'ม', 'ง'], ['ต', 'ล', 'า', 'ค', 'ม'], ['ป', 'ท', 'แ', 'ล', 'ว'], ['พ', 'ฤ', 'ษ', 'ภ', 'า'], ['ม', 'น', 'า', 'ค', 'ม'], ['ม', 'า', 'แ', 'ล', 'ว'], ['ว', 'น', 'พ', 'ธ', 'ท'], ['ว', 'น', 'ศ', 'ก', 'ร'], ['ส', 'ป', 'ด', 'า', 'ห'], ['อ', 'ง', 'ค', 'า', 'ร'], ['อ', 'า', 'ท', 'ต', 'ย'], ['เ', 'ด', 'อ', 'น', 'น'], ['แ', 'ต', 'ก', 'อ', 'น'], ['ก', 'น', 'ย', 'า'], ['ก', 'ม', 'ภ', 'า'], ['ข', 'ณ', 'ะ', 'น'], ['จ', 'น', 'ท', 'ร'], ['ธ', 'น', 'ว', 'า'], ['น', 'า', 'ท', 'น'], ['ป', 'ห', 'น', 'า'], ['พ', 'ร', 'ง', 'น'], ['พ', 'ฤ', 'ศ', 'จ'], ['พ', 'ฤ', 'ห', 'ส'], ['ม', 'ก', 'ร', 'า'], ['ม', 'ถ', 'น', 'า'], ['ว', 'น', 'พ', 'ธ'], ['ว', 'น', 'า', 'ท'], ['ส', 'ง', 'ห', 'า'], ['เ', 'ด', 'อ', 'น'], ['เ', 'ม', 'ษ', 'า'], ['เ', 'ว', 'ล', 'า'], ['เ', 'ส', 'า', 'ร'], ['g', 'm', 't'], ['u', 't', 'c'], ['ก', 'อ', 'น'], ['ต', 'ล', 'า'], ['น', 'า', 'ท'], ['ม', 'น', 'า'], ['ว', 'น', 'น'], ['ศ', 'ก', 'ร'], ['เ', 'ม', 'ย'], ['เ', 'ม', 'อ'], ['a', 'm'], ['p', 'm'], ['ก', 'ค'], ['ก', 'พ'], ['ก', 'ย'], ['ช', 'ม'], ['ต', 'ค'], ['ธ', 'ค'], ['น', '.'], ['ป', 'น'], ['พ', 'ค'], ['พ', 'ธ'], ['พ', 'ย'], ['พ', 'ฤ'], ['ม', 'ค'], ['ม', 'ย'], ['ว', 'น'], ['ส', 'ค'], ['อ', 'า'], ['ใ', 'น'], [' '], ['\''], ['+'], [','], ['-'], ['.'], ['/'], [':'], [';'], ['@'], ['['], [']'], ['z'], ['|'], ['จ'], ['น'], ['ป'], ['พ'], ['ว'], ['ศ'], ['ส'], ['อ']] }

/-- internal/data/ti.go: `ti_Locale`. -/
def tiLang : LangData := { tiDict with
  knownWords :=
   [['t', 'h', 'i', 's', ' ', 'm', 'i', 'n', 'u', 't', 'e'], ['l', 'a', 's', 't', ' ', 'm', 'o', 'n', 't', 'h'], ['n', 'e', 'x', 't', ' ', 'm', 'o', 'n', 't', 'h'], ['t', 'h', 'i', 's', ' ', 'm', 'o', 'n', 't', 'h'], ['l', 'a', 's', 't', ' ', 'w', 'e', 'e', 'k'], ['l', 'a', 's', 't', ' ', 'y', 'e', 'a', 'r'], ['n', 'e', 'x', 't', ' ', 'w', 'e', 'e', 'k'], ['n', 'e', 'x', 't', ' ', 'y', 'e', 'a', 'r'], ['t', 'h', 'i', 's', ' ', 'h', 'o', 'u', 'r'], ['t', 'h', 'i', 's', ' ', 'w', 'e', 'e', 'k'], ['t', 'h', 'i', 's', ' ', 'y', 'e', 'a', 'r'], ['y', 'e', 's', 't', 'e', 'r', 'd', 'a', 'y'], ['t', 'o', 'm', 'o', 'r', 'r', 'o', 'w'], ['ን', 'ጉ', 'ሆ', ' ', 'ሰ', 'ዓ', 'ተ'], ['ድ', 'ሕ', 'ር', ' ', 'ሰ', 'ዓ', 'ት'], ['m', 'i', 'n', 'u', 't', 'e'], ['s', 'e', 'c', 'o', 'n', 'd'], ['m', 'o', 'n', 't', 'h'], ['t', 'o', 'd', 'a', 'y'], ['መ', 'ስ', 'ከ', 'ረ', 'ም'], ['h', 'o', 'u', 'r'], ['w', 'e', 'e', 'k'], ['y', 'e', 'a', 'r'], ['ለ', 'ካ', 'ቲ', 'ት'], ['መ', 'ጋ', 'ቢ', 'ት'], ['ሚ', 'ያ', 'ዝ', 'ያ'], ['ሰ', 'ን', 'በ', 'ት'], ['ታ', 'ሕ', 'ሳ', 'ስ'], ['ግ', 'ን', 'ቦ', 'ት'], ['ጥ', 'ቅ', 'ም', 'ቲ'], ['d', 'a', 'y'], ['g', 'm', 't'], ['n', 'o', 'w'], ['u', 't', 'c'], ['ሓ', 'ሙ', 'ስ'], ['ሓ', 'ም', 'ለ'], ['ሕ', 'ዳ', 'ር'], ['ሠ', 'ሉ', 'ስ'], ['ረ', 'ቡ', 'ዕ'], ['ሰ', 'ሉ', 'ስ'], ['ሰ', 'ኑ', 'ይ'], ['ቀ', 'ዳ', 'ም'], ['ኃ', 'ሙ', 'ስ'], ['ነ', 'ሓ', 'ሰ'], ['ዓ', 'ር', 'ቢ'], ['a', 'm'], ['p', 'm'], ['ለ', 'ካ'], ['ሓ', 'ሙ'], ['ሓ', 'ም'], ['ሕ', 'ዳ'], ['መ', 'ስ'], ['መ', 'ጋ'], ['ሚ', 'ያ'], ['ረ', 'ቡ'], ['ሰ', 'ሉ'], ['ሰ', 'ነ'], ['ሰ', 'ኑ'], ['ሰ', 'ን'], ['ቀ', 'ዳ'], ['ታ', 'ሕ'], ['ነ', 'ሓ'], ['ዓ', 'ር'], ['ግ', 'ን'], ['ጥ', 'ሪ'], ['ጥ', 'ቅ'], [' '], ['\''], ['+'], [','], ['-'], ['.'], ['/'], [':'], [';'], ['@'], ['['], [']'], ['z'], ['|']] }

/-- internal/data/ti.go: `ti_ER_Locale`. -/
def ti_ERLang : LangData := ti_ERDict

/-- internal/data/tl.go: `tl_Locale`. -/
def tlLang : LangData := { tlDict with
  simplifications :=
   [(.seqs [.grp 1 (.alts [.bos, .noWord]), .lit ['k', 'a', 'h', 'a', 'p', 'o', 'n'], .grp 2 (.alts [.eos, .noWord])], [.ref 1, .lit ['1', ' ', 'a', 'r', 'a', 'w', ' ', 'n', 'a', 'k', 'a', 'r', 'a', 'a', 'n'], .ref 2]),
    (.seqs [.grp 1 (.alts [.bos, .noWord]), .lit ['n', 'g', 'a', 'y', 'o', 'n'], .grp 2 (.alts [.eos, .noWord])], [.ref 1, .lit ['0', ' ', 's', 'e', 'g', 'u', 'n', 'd', 'o', ' ', 'n', 'a', 'k', 'a', 'l', 'i', 'p', 'a', 's'], .ref 2]),
    (.seqs [.grp 1 (.alts [.bos, .noWord]), .lit ['i', 's', 'a', 'n', 'g', ' ', 'a', 'r', 'a', 'w'], .grp 2 (.alts [.eos, .noWord])], [.ref 1, .lit ['2', ' ', 'a', 'r', 'a', 'w'], .ref 2])],
  knownWords :=
   [['m', 'i', 'y', 'e', 'r', 'k', 'u', 'l', 'e', 's'], ['d', 'i', 's', 'y', 'e', 'm', 'b', 'r', 'e'], ['n', 'a', 'k', 'a', 'l', 'i', 'p', 'a', 's'], ['n', 'o', 'b', 'y', 'e', 'm', 'b', 'r', 'e'], ['s', 'e', 't', 'y', 'e', 'm', 'b', 'r', 'e'], ['b', 'i', 'y', 'e', 'r', 'n', 'e', 's'], ['n', 'a', 'k', 'a', 'r', 'a', 'a', 'n'], ['h', 'u', 'w', 'e', 'b', 'e', 's'], ['o', 'k', 't', 'u', 'b', 'r', 'e'], ['p', 'e', 'b', 'r', 'e', 'r', 'o'], ['s', 'e', 'g', 'u', 'n', 'd', 'o'], ['a', 'g', 'o', 's', 't', 'o'], ['l', 'i', 'n', 'g', 'g', 'o'], ['m', 'a', 'r', 't', 'e', 's'], ['m', 'i', 'n', 'u', 't', 'o'], ['s', 'a', 'b', 'a', 'd', 'o'], ['a', 'b', 'r', 'i', 'l'], ['b', 'u', 'w', 'a', 'n'], ['e', 'n', 'e', 'r', 'o'], ['g', 'a', 'n', 'a', 'p'], ['h', 'u', 'l', 'y', 'o'], ['h', 'u', 'n', 'y', 'o'], ['l', 'u', 'n', 'e', 's'], ['m', 'a', 'r', 's', 'o'], ['n', 'o', 'o', 'n', 'g'], ['a', 'r', 'a', 'w'], ['m', 'a', 'y', 'o'], ['n', 'o', 'o', 'n'], ['o', 'r', 'a', 's'], ['t', 'a', 'o', 'n'], ['a', 'b', 'r'], ['a', 'g', 'o'], ['b', 'i', 'y'], ['d', 'i', 's'], ['e', 'n', 'e'], ['g', 'm', 't'], ['h', 'u', 'l'], ['h', 'u', 'n'], ['h', 'u', 'w'], ['l', 'i', 'n'], ['l', 'u', 'n'], ['m', 'a', 'r'], ['m', 'a', 'y'], ['m', 'i', 'y'], ['n', 'o', 'b'], ['o', 'k', 't'], ['p', 'e', 'b'], ['s', 'a', 'b'], ['s', 'e', 't'], ['u', 't', 'c'], ['a', 'm'], ['n', 'a'], ['p', 'm'], ['s', 'a'], [' '], ['\''], ['+'], [','], ['-'], ['.'], ['/'], [':'], [';'], ['@'], ['['], [']'], ['z'], ['|']] }

/-- internal/data/to.go: `to_Locale`. -/
def toLang : LangData := { toDict with
  relativeRegexes :=
   [(.seqs [.lit ['m', 'a', 'h', 'i', 'n', 'a', ' ', '\'', 'e', ' '], .grp 1 (.number), .lit [' ', 'k', 'u', 'o', '\'', 'o', 's', 'i']], [.ref 1, .lit [' ', 'm', 'o', 'n', 't', 'h', ' ', 'a', 'g', 'o']]),
    (.seqs [.lit ['m', 'i', 'n', 'i', 't', 'i', ' ', '\'', 'e', ' '], .grp 1 (.number), .lit [' ', 'k', 'u', 'o', '\'', 'o', 's', 'i']], [.ref 1, .lit [' ', 'm', 'i', 'n', 'u', 't', 'e', ' ', 'a', 'g', 'o']]),
    (.seqs [.lit ['s', 'e', 'k', 'o', 'n', 'i', ' ', '\'', 'e', ' '], .grp 1 (.number), .lit [' ', 'k', 'u', 'o', '\'', 'o', 's', 'i']], [.ref 1, .lit [' ', 's', 'e', 'c', 'o', 'n', 'd', ' ', 'a', 'g', 'o']]),
    (.seqs [.lit ['\'', 'a', 'h', 'o', ' ', '\'', 'e', ' '], .grp 1 (.number), .lit [' ', 'k', 'u', 'o', '\'', 'o', 's', 'i']], [.ref 1, .lit [' ', 'd', 'a', 'y', ' ', 'a', 'g', 'o']]),
    (.seqs [.lit ['\'', 'i', ' ', 'h', 'e', ' ', 'm', 'a', 'h', 'i', 'n', 'a', ' ', '\'', 'e', ' '], .grp 1 (.number)], [.lit ['i', 'n', ' '], .ref 1, .lit [' ', 'm', 'o', 'n', 't', 'h']]),
    (.seqs [.lit ['\'', 'i', ' ', 'h', 'e', ' ', 'm', 'i', 'n', 'i', 't', 'i', ' ', '\'', 'e', ' '], .grp 1 (.number)], [.lit ['i', 'n', ' '], .ref 1, .lit [' ', 'm', 'i', 'n', 'u', 't', 'e']]),
    (.seqs [.lit ['\'', 'i', ' ', 'h', 'e', ' ', 's', 'e', 'k', 'o', 'n', 'i', ' ', '\'', 'e', ' '], .grp 1 (.number)], [.lit ['i', 'n', ' '], .ref 1, .lit [' ', 's', 'e', 'c', 'o', 'n', 'd']]),
    (.seqs [.lit ['h', 'o', 'u', 'a', ' ', '\'', 'e', ' '], .grp 1 (.number), .lit [' ', 'k', 'u', 'o', '\'', 'o', 's', 'i']], [.ref 1, .lit [' ', 'h', 'o', 'u', 'r', ' ', 'a', 'g', 'o']]),
    (.seqs [.lit ['t', 'a', '\'', 'u', ' ', '\'', 'e', ' '], .grp 1 (.number), .lit [' ', 'k', 'u', 'o', '\'', 'o', 's', 'i']], [.ref 1, .lit [' ', 'y', 'e', 'a', 'r', ' ', 'a', 'g', 'o']]),
    (.seqs [.lit ['u', 'i', 'k', 'e', ' ', '\'', 'e', ' '], .grp 1 (.number), .lit [' ', 'k', 'u', 'o', '\'', 'o', 's', 'i']], [.ref 1, .lit [' ', 'w', 'e', 'e', 'k', ' ', 'a', 'g', 'o']]),
    (.seqs [.lit ['\'', 'i', ' ', 'h', 'e', ' ', '\'', 'a', 'h', 'o', ' ', '\'', 'e', ' '], .grp 1 (.number)], [.lit ['i', 'n', ' '], .ref 1, .lit [' ', 'd', 'a', 'y']]),
    (.seqs [.lit ['\'', 'i', ' ', 'h', 'e', ' ', 'h', 'o', 'u', 'a', ' ', '\'', 'e', ' '], .grp 1 (.number)], [.lit ['i', 'n', ' '], .ref 1, .lit [' ', 'h', 'o', 'u', 'r']]),
    (.seqs [.lit ['\'', 'i', ' ', 'h', 'e', ' ', 't', 'a', '\'', 'u', ' ', '\'', 'e', ' '], .grp 1 (.number)], [.lit ['i', 'n', ' '], .ref 1, .lit [' ', 'y', 'e', 'a', 'r']]),
    (.seqs [.lit ['\'', 'i', ' ', 'h', 'e', ' ', 'u', 'i', 'k', 'e', ' ', '\'', 'e', ' '], .grp 1 (.number)], [.lit ['i', 'n', ' '], .ref 1, .lit [' ', 'w', 'e', 'e', 'k']])],
  rxCombined := some (.seqs [.grp 1 (.alts [.bos, .cls true [.letter, .mark, .digit], .lit ['_']]), .grp 2 (.alts [.seqs [.lit ['m', 'a', 'h', 'i', 'n', 'a', ' ', '\'', 'e', ' '], .number, .lit [' ', 'k', 'u', 'o', '\'', 'o', 's', 'i']], .seqs [.lit ['m', 'i', 'n', 'i', 't', 'i', ' ', '\'', 'e', ' '], .number, .lit [' ', 'k', 'u', 'o', '\'', 'o', 's', 'i']], .seqs [.lit ['s', 'e', 'k', 'o', 'n', 'i', ' ', '\'', 'e', ' '], .number, .lit [' ', 'k', 'u', 'o', '\'', 'o', 's', 'i']], .seqs [.lit ['\'', 'a', 'h', 'o', ' ', '\'', 'e', ' '], .number, .lit [' ', 'k', 'u', 'o', '\'', 'o', 's', 'i']], .seqs [.lit ['\'', 'i', ' ', 'h', 'e', ' ', 'm', 'a', 'h', 'i', 'n', 'a', ' ', '\'', 'e', ' '], .number], .seqs [.lit ['\'', 'i', ' ', 'h', 'e', ' ', 'm', 'i', 'n', 'i', 't', 'i', ' ', '\'', 'e', ' '], .number], .seqs [.lit ['\'', 'i', ' ', 'h', 'e', ' ', 's', 'e', 'k', 'o', 'n', 'i', ' ', '\'', 'e', ' '], .number], .seqs [.lit ['h', 'o', 'u', 'a', ' ', '\'', 'e', ' '], .number, .lit [' ', 'k', 'u', 'o', '\'', 'o', 's', 'i']], .seqs [.lit ['t', 'a', '\'', 'u', ' ', '\'', 'e', ' '], .number, .lit [' ', 'k', 'u', 'o', '\'', 'o', 's', 'i']], .seqs [.lit ['u', 'i', 'k', 'e', ' ', '\'', 'e', ' '], .number, .lit [' ', 'k', 'u', 'o', '\'', 'o', 's', 'i']], .seqs [.lit ['\'', 'i', ' ', 'h', 'e', ' ', '\'', 'a', 'h', 'o', ' ', '\'', 'e', ' '], .number], .seqs [.lit ['\'', 'i', ' ', 'h', 'e', ' ', 'h', 'o', 'u', 'a', ' ', '\'', 'e', ' '], .number], .seqs [.lit ['\'', 'i', ' ', 'h', 'e', ' ', 't', 'a', '\'', 'u', ' ', '\'', 'e', ' '], .number], .seqs [.lit ['\'', 'i', ' ', 'h', 'e', ' ', 'u', 'i', 'k', 'e', ' ', '\'', 'e', ' '], .number]]), .grp 3 (.alts [.eos, .cls true [.letter, .mark, .digit], .lit ['_']])], 3),
  rxExact := some (.seqs [.bos, .grp 1 (.alts [.seqs [.lit ['m', 'a', 'h', 'i', 'n', 'a', ' ', '\'', 'e', ' '], .number, .lit [' ', 'k', 'u', 'o', '\'', 'o', 's', 'i']], .seqs [.lit ['m', 'i', 'n', 'i', 't', 'i', ' ', '\'', 'e', ' '], .number, .lit [' ', 'k', 'u', 'o', '\'', 'o', 's', 'i']], .seqs [.lit ['s', 'e', 'k', 'o', 'n', 'i', ' ', '\'', 'e', ' '], .number, .lit [' ', 'k', 'u', 'o', '\'', 'o', 's', 'i']], .seqs [.lit ['\'', 'a', 'h', 'o', ' ', '\'', 'e', ' '], .number, .lit [' ', 'k', 'u', 'o', '\'', 'o', 's', 'i']], .seqs [.lit ['\'', 'i', ' ', 'h', 'e', ' ', 'm', 'a', 'h', 'i', 'n', 'a', ' ', '\'', 'e', ' '], .number], .seqs [.lit ['\'', 'i', ' ', 'h', 'e', ' ', 'm', 'i', 'n', 'i', 't', 'i', ' ', '\'', 'e', ' '], .number], .seqs [.lit ['\'', 'i', ' ', 'h', 'e', ' ', 's', 'e', 'k', 'o', 'n', 'i', ' ', '\'', 'e', ' '], .number], .seqs [.lit ['h', 'o', 'u', 'a', ' ', '\'', 'e', ' '], .number, .lit [' ', 'k', 'u', 'o', '\'', 'o', 's', 'i']], .seqs [.lit ['t', 'a', '\'', 'u', ' ', '\'', 'e', ' '], .number, .lit [' ', 'k', 'u', 'o', '\'', 'o', 's', 'i']], .seqs [.lit ['u', 'i', 'k', 'e', ' ', '\'', 'e', ' '], .number, .lit [' ', 'k', 'u', 'o', '\'', 'o', 's', 'i']], .seqs [.lit ['\'', 'i', ' ', 'h', 'e', ' ', '\'', 'a', 'h', 'o', ' ', '\'', 'e', ' '], .number], .seqs [.lit ['\'', 'i', ' ', 'h', 'e', ' ', 'h', 'o', 'u', 'a', ' ', '\'', 'e', ' '], .number], .seqs [.lit ['\'', 'i', ' ', 'h', 'e', ' ', 't', 'a', '\'', 'u', ' ', '\'', 'e', ' '], .number], .seqs [.lit ['\'', 'i', ' ', 'h', 'e', ' ', 'u', 'i', 'k', 'e', ' ', '\'', 'e', ' '], .number]]), .eos]),
  knownWords :=
   [['m', 'a', 'h', 'i', 'n', 'a', ' ', 'k', 'u', 'o', '\'', 'o', 's', 'i'], ['m', 'a', 'h', 'i', 'n', 'a', ' ', 'k', 'a', 'h', 'a', '\'', 'u'], ['\'', 'a', 'p', 'o', 'n', 'g', 'i', 'p', 'o', 'n', 'g', 'i'], ['t', 'a', '\'', 'u', ' ', 'k', 'u', 'o', '\'', 'o', 's', 'i'], ['t', 'u', '\'', 'a', 'p', 'u', 'l', 'e', 'l', 'u', 'l', 'u'], ['u', 'i', 'k', 'e', ' ', 'k', 'u', 'o', '\'', 'o', 's', 'i'], ['t', 'a', '\'', 'u', ' ', 'k', 'a', 'h', 'a', '\'', 'u'], ['t', 'h', 'i', 's', ' ', 'm', 'i', 'n', 'u', 't', 'e'], ['u', 'i', 'k', 'e', ' ', 'k', 'a', 'h', 'a', '\'', 'u'], ['h', 'e', 'n', 'g', 'i', 'h', 'e', 'n', 'g', 'i'], ['m', 'a', 'h', 'i', 'n', 'a', ' ', 'n', 'i'], ['t', 'h', 'i', 's', ' ', 'h', 'o', 'u', 'r'], ['\'', 'e', 'p', 'e', 'l', 'e', 'l', 'i'], ['\'', 'o', 'k', 'a', 't', 'o', 'p', 'a'], ['p', 'u', 'l', 'e', 'l', 'u', 'l', 'u'], ['s', 'e', 'p', 'i', 't', 'e', 'm', 'a'], ['t', 'a', 'i', 'm', 'i', ' ', 'n', 'i'], ['t', 'o', 'k', 'o', 'n', 'a', 'k', 'i'], ['\'', 'a', 'h', 'o', ' ', 'n', 'i'], ['\'', 'a', 'n', 'e', 'a', 'f', 'i'], ['\'', 'a', 'o', 'k', 'o', 's', 'i'], ['f', 'a', 'l', 'a', 'i', 't', 'e'], ['f', 'e', 'p', 'u', 'e', 'l', 'i'], ['s', 'a', 'n', 'u', 'a', 'l', 'i'], ['t', 'a', '\'', 'u', ' ', 'n', 'i'], ['u', 'i', 'k', 'e', ' ', 'n', 'i'], ['e', 'f', 'i', 'a', 'f', 'i'], ['m', 'a', '\'', 'a', 's', 'i'], ['m', 'a', 'h', 'i', 'n', 'a'], ['m', 'i', 'n', 'i', 't', 'i'], ['m', 'o', 'n', 'i', 't', 'e'], ['n', 'o', 'v', 'e', 'm', 'a'], ['s', 'a', 'p', 'a', 't', 'e'], ['s', 'e', 'k', 'o', 'n', 'i'], ['s', 'i', 'u', 'l', 'a', 'i'], ['t', 'i', 's', 'e', 'm', 'a'], ['t', 'u', 's', 'i', 't', 'e'], ['\'', 'a', 'h', 'o'], ['\'', 'a', 'o', 'k'], ['\'', 'e', 'p', 'e'], ['\'', 'o', 'k', 'a'], ['h', 'o', 'u', 'a'], ['m', 'a', '\'', 'a'], ['s', 'u', 'n', 'e'], ['t', 'a', '\'', 'u'], ['t', 'u', '\'', 'a'], ['u', 'i', 'k', 'e'], ['f', 'a', 'l'], ['f', 'e', 'p'], ['g', 'm', 't'], ['m', 'o', 'n'], ['n', 'o', 'v'], ['p', 'u', 'l'], ['s', 'a', 'n'], ['s', 'a', 'p'], ['s', 'e', 'p'], ['s', 'i', 'u'], ['s', 'u', 'n'], ['t', 'i', 's'], ['t', 'o', 'k'], ['t', 'u', 's'], ['u', 't', 'c'], ['a', 'm'], ['e', 'a'], ['h', 'h'], ['m', 'e'], ['p', 'm'], [' '], ['\''], ['+'], [','], ['-'], ['.'], ['/'], [':'], [';'], ['@'], ['['], [']'], ['z'], ['|']] }

/-- internal/data/tr.go: `tr_Locale`. -/
def trLang : LangData := { trDict with
  relativeRegexes :=
   [(.seqs [.grp 1 (.number), .lit [' ', 'd', 'a', 'k', 'i', 'k', 'a', ' ', 's', 'o', 'n', 'r', 'a']], [.lit ['i', 'n', ' '], .ref 1, .lit [' ', 'm', 'i', 'n', 'u', 't', 'e']]),
    (.seqs [.grp 1 (.number), .lit [' ', 's', 'a', 'n', 'i', 'y', 'e', ' ', 's', 'o', 'n', 'r', 'a']], [.lit ['i', 'n', ' '], .ref 1, .lit [' ', 's', 'e', 'c', 'o', 'n', 'd']]),
    (.seqs [.grp 1 (.number), .lit [' ', 'd', 'a', 'k', 'i', 'k', 'a', ' ', 'o', 'n', 'c', 'e']], [.ref 1, .lit [' ', 'm', 'i', 'n', 'u', 't', 'e', ' ', 'a', 'g', 'o']]),
    (.seqs [.grp 1 (.number), .lit [' ', 'h', 'a', 'f', 't', 'a', ' ', 's', 'o', 'n', 'r', 'a']], [.lit ['i', 'n', ' '], .ref 1, .lit [' ', 'w', 'e', 'e', 'k']]),
    (.seqs [.grp 1 (.number), .lit [' ', 's', 'a', 'n', 'i', 'y', 'e', ' ', 'o', 'n', 'c', 'e']], [.ref 1, .lit [' ', 's', 'e', 'c', 'o', 'n', 'd', ' ', 'a', 'g', 'o']]),
    (.seqs [.grp 1 (.number), .lit [' ', 'h', 'a', 'f', 't', 'a', ' ', 'o', 'n', 'c', 'e']], [.ref 1, .lit [' ', 'w', 'e', 'e', 'k', ' ', 'a', 'g', 'o']]),
    (.seqs [.grp 1 (.number), .lit [' ', 's', 'a', 'a', 't', ' ', 's', 'o', 'n', 'r', 'a']], [.lit ['i', 'n', ' '], .ref 1, .lit [' ', 'h', 'o', 'u', 'r']]),
    (.seqs [.grp 1 (.number), .lit [' ', 'g', 'u', 'n', ' ', 's', 'o', 'n', 'r', 'a']], [.lit ['i', 'n', ' '], .ref 1, .lit [' ', 'd', 'a', 'y']]),
    (.seqs [.grp 1 (.number), .lit [' ', 's', 'a', 'a', 't', ' ', 'o', 'n', 'c', 'e']], [.ref 1, .lit [' ', 'h', 'o', 'u', 'r', ' ', 'a', 'g', 'o']]),
    (.seqs [.grp 1 (.number), .lit [' ', 'y', 'ı', 'l', ' ', 's', 'o', 'n', 'r', 'a']], [.lit ['i', 'n', ' '], .ref 1, .lit [' ', 'y', 'e', 'a', 'r']]),
    (.seqs [.grp 1 (.number), .lit [' ', 'a', 'y', ' ', 's', 'o', 'n', 'r', 'a']], [.lit ['i', 'n', ' '], .ref 1, .lit [' ', 'm', 'o', 'n', 't', 'h']]),
    (.seqs [.grp 1 (.number), .lit [' ', 'd', 'k', ' ', 's', 'o', 'n', 'r', 'a']], [.lit ['i', 'n', ' '], .ref 1, .lit [' ', 'm', 'i', 'n', 'u', 't', 'e']]),
    (.seqs [.grp 1 (.number), .lit [' ', 'g', 'u', 'n', ' ', 'o', 'n', 'c', 'e']], [.ref 1, .lit [' ', 'd', 'a', 'y', ' ', 'a', 'g', 'o']]),
    (.seqs [.grp 1 (.number), .lit [' ', 'h', 'f', ' ', 's', 'o', 'n', 'r', 'a']], [.lit ['i', 'n', ' '], .ref 1, .lit [' ', 'w', 'e', 'e', 'k']]),
    (.seqs [.grp 1 (.number), .lit [' ', 's', 'a', ' ', 's', 'o', 'n', 'r', 'a']], [.lit ['i', 'n', ' '], .ref 1, .lit [' ', 'h', 'o', 'u', 'r']]),
    (.seqs [.grp 1 (.number), .lit [' ', 's', 'n', ' ', 's', 'o', 'n', 'r', 'a']], [.lit ['i', 'n', ' '], .ref 1, .lit [' ', 's', 'e', 'c', 'o', 'n', 'd']]),
    (.seqs [.grp 1 (.number), .lit [' ', 'y', 'ı', 'l', ' ', 'o', 'n', 'c', 'e']], [.ref 1, .lit [' ', 'y', 'e', 'a', 'r', ' ', 'a', 'g', 'o']]),
    (.seqs [.grp 1 (.number), .lit [' ', 'a', 'y', ' ', 'o', 'n', 'c', 'e']], [.ref 1, .lit [' ', 'm', 'o', 'n', 't', 'h', ' ', 'a', 'g', 'o']]),
    (.seqs [.grp 1 (.number), .lit [' ', 'd', 'k', ' ', 'o', 'n', 'c', 'e']], [.ref 1, .lit [' ', 'm', 'i', 'n', 'u', 't', 'e', ' ', 'a', 'g', 'o']]),
    (.seqs [.grp 1 (.number), .lit [' ', 'h', 'f', ' ', 'o', 'n', 'c', 'e']], [.ref 1, .lit [' ', 'w', 'e', 'e', 'k', ' ', 'a', 'g', 'o']]),
    (.seqs [.grp 1 (.number), .lit [' ', 's', 'a', ' ', 'o', 'n', 'c', 'e']], [.ref 1, .lit [' ', 'h', 'o', 'u', 'r', ' ', 'a', 'g', 'o']]),
    (.seqs [.grp 1 (.number), .lit [' ', 's', 'n', ' ', 'o', 'n', 'c', 'e']], [.ref 1, .lit [' ', 's', 'e', 'c', 'o', 'n', 'd', ' ', 'a', 'g', 'o']])],
  rxCombined := some (.seqs [.grp 1 (.alts [.bos, .cls true [.letter, .mark, .digit], .lit ['_']]), .grp 2 (.alts [.seqs [.number, .lit [' ', 'd', 'a', 'k', 'i', 'k', 'a', ' ', 's', 'o', 'n', 'r', 'a']], .seqs [.number, .lit [' ', 's', 'a', 'n', 'i', 'y', 'e', ' ', 's', 'o', 'n', 'r', 'a']], .seqs [.number, .lit [' ', 'd', 'a', 'k', 'i', 'k', 'a', ' ', 'o', 'n', 'c', 'e']], .seqs [.number, .lit [' ', 'h', 'a', 'f', 't', 'a', ' ', 's', 'o', 'n', 'r', 'a']], .seqs [.number, .lit [' ', 's', 'a', 'n', 'i', 'y', 'e', ' ', 'o', 'n', 'c', 'e']], .seqs [.number, .lit [' ', 'h', 'a', 'f', 't', 'a', ' ', 'o', 'n', 'c', 'e']], .seqs [.number, .lit [' ', 's', 'a', 'a', 't', ' ', 's', 'o', 'n', 'r', 'a']], .seqs [.number, .lit [' ', 'g', 'u', 'n', ' ', 's', 'o', 'n', 'r', 'a']], .seqs [.number, .lit [' ', 's', 'a', 'a', 't', ' ', 'o', 'n', 'c', 'e']], .seqs [.number, .lit [' ', 'y', 'ı', 'l', ' ', 's', 'o', 'n', 'r', 'a']], .seqs [.number, .lit [' ', 'a', 'y', ' ', 's', 'o', 'n', 'r', 'a']], .seqs [.number, .lit [' ', 'd', 'k', ' ', 's', 'o', 'n', 'r', 'a']], .seqs [.number, .lit [' ', 'g', 'u', 'n', ' ', 'o', 'n', 'c', 'e']], .seqs [.number, .lit [' ', 'h', 'f', ' ', 's', 'o', 'n', 'r', 'a']], .seqs [.number, .lit [' ', 's', 'a', ' ', 's', 'o', 'n', 'r', 'a']], .seqs [.number, .lit [' ', 's', 'n', ' ', 's', 'o', 'n', 'r', 'a']], .seqs [.number, .lit [' ', 'y', 'ı', 'l', ' ', 'o', 'n', 'c', 'e']], .seqs [.number, .lit [' ', 'a', 'y', ' ', 'o', 'n', 'c', 'e']], .seqs [.number, .lit [' ', 'd', 'k', ' ', 'o', 'n', 'c', 'e']], .seqs [.number, .lit [' ', 'h', 'f', ' ', 'o', 'n', 'c', 'e']], .seqs [.number, .lit [' ', 's', 'a', ' ', 'o', 'n', 'c', 'e']], .seqs [.number, .lit [' ', 's', 'n', ' ', 'o', 'n', 'c', 'e']]]), .grp 3 (.alts [.eos, .cls true [.letter, .mark, .digit], .lit ['_']])], 3),
  rxExact := some (.seqs [.bos, .grp 1 (.alts [.seqs [.number, .lit [' ', 'd', 'a', 'k', 'i', 'k', 'a', ' ', 's', 'o', 'n', 'r', 'a']], .seqs [.number, .lit [' ', 's', 'a', 'n', 'i', 'y', 'e', ' ', 's', 'o', 'n', 'r', 'a']], .seqs [.number, .lit [' ', 'd', 'a', 'k', 'i', 'k', 'a', ' ', 'o', 'n', 'c', 'e']], .seqs [.number, .lit [' ', 'h', 'a', 'f', 't', 'a', ' ', 's', 'o', 'n', 'r', 'a']], .seqs [.number, .lit [' ', 's', 'a', 'n', 'i', 'y', 'e', ' ', 'o', 'n', 'c', 'e']], .seqs [.number, .lit [' ', 'h', 'a', 'f', 't', 'a', ' ', 'o', 'n', 'c', 'e']], .seqs [.number, .lit [' ', 's', 'a', 'a', 't', ' ', 's', 'o', 'n', 'r', 'a']], .seqs [.number, .lit [' ', 'g', 'u', 'n', ' ', 's', 'o', 'n', 'r', 'a']], .seqs [.number, .lit [' ', 's', 'a', 'a', 't', ' ', 'o', 'n', 'c', 'e']], .seqs [.number, .lit [' ', 'y', 'ı', 'l', ' ', 's', 'o', 'n', 'r', 'a']], .seqs [.number, .lit [' ', 'a', 'y', ' ', 's', 'o', 'n', 'r', 'a']], .seqs [.number, .lit [' ', 'd', 'k', ' ', 's', 'o', 'n', 'r', 'a']], .seqs [.number, .lit [' ', 'g', 'u', 'n', ' ', 'o', 'n', 'c', 'e']], .seqs [.number, .lit [' ', 'h', 'f', ' ', 's', 'o', 'n', 'r', 'a']], .seqs [.number, .lit [' ', 's', 'a', ' ', 's', 'o', 'n', 'r', 'a']], .seqs [.number, .lit [' ', 's', 'n', ' ', 's', 'o', 'n', 'r', 'a']], .seqs [.number, .lit [' ', 'y', 'ı', 'l', ' ', 'o', 'n', 'c', 'e']], .seqs [.number, .lit [' ', 'a', 'y', ' ', 'o', 'n', 'c', 'e']], .seqs [.number, .lit [' ', 'd', 'k', ' ', 'o', 'n', 'c', 'e']], .seqs [.number, .lit [' ', 'h', 'f', ' ', 'o', 'n', 'c', 'e']], .seqs [.number, .lit [' ', 's', 'a', ' ', 'o', 'n', 'c', 'e']], .seqs [.number, .lit [' ', 's', 'n', ' ', 'o', 'n', 'c', 'e']]]), .eos]),
  knownWords :=
   [['o', 'n', 'u', 'm', 'u', 'z', 'd', 'e', 'k', 'i', ' ', 'h', 'a', 'f', 't', 'a'], ['o', 'n', 'u', 'm', 'u', 'z', 'd', 'e', 'k', 'i', ' ', 'g', 'u', 'n'], ['o', 'n', 'u', 'm', 'u', 'z', 'd', 'e', 'k', 'i', ' ', 'y', 'ı', 'l'], ['g', 'e', 'l', 'e', 'c', 'e', 'k', ' ', 'h', 'a', 'f', 't', 'a'], ['o', 'n', 'u', 'm', 'u', 'z', 'd', 'e', 'k', 'i', ' ', 'a', 'y'], ['g', 'e', 'c', 'e', 'n', ' ', 'h', 'a', 'f', 't', 'a'], ['g', 'e', 'l', 'e', 'c', 'e', 'k', ' ', 'y', 'ı', 'l'], ['g', 'e', 'l', 'e', 'c', 'e', 'k', ' ', 'a', 'y'], ['i', 'c', 'e', 'r', 'i', 's', 'i', 'n', 'd', 'e'], ['b', 'u', ' ', 'd', 'a', 'k', 'i', 'k', 'a'], ['c', 'u', 'm', 'a', 'r', 't', 'e', 's', 'i'], ['g', 'e', 'c', 'e', 'n', ' ', 'g', 'u', 'n'], ['g', 'e', 'c', 'e', 'n', ' ', 'y', 'ı', 'l'], ['p', 'a', 'z', 'a', 'r', 't', 'e', 's', 'i'], ['b', 'u', ' ', 'h', 'a', 'f', 't', 'a'], ['c', 'a', 'r', 's', 'a', 'm', 'b', 'a'], ['g', 'e', 'c', 'e', 'n', ' ', 'a', 'y'], ['p', 'e', 'r', 's', 'e', 'm', 'b', 'e'], ['y', 'a', 'k', 'l', 'a', 's', 'ı', 'k'], ['a', 'g', 'u', 's', 't', 'o', 's'], ['b', 'u', ' ', 's', 'a', 'a', 't'], ['h', 'a', 'f', 't', 'a', 'y', 'a'], ['h', 'a', 'z', 'i', 'r', 'a', 'n'], ['a', 'r', 'a', 'l', 'ı', 'k'], ['b', 'u', ' ', 'y', 'ı', 'l'], ['d', 'a', 'k', 'i', 'k', 'a'], ['i', 'c', 'i', 'n', 'd', 'e'], ['s', 'a', 'n', 'i', 'y', 'e'], ['t', 'e', 'm', 'm', 'u', 'z'], ['b', 'u', ' ', 'a', 'y'], ['b', 'u', 'g', 'u', 'n'], ['e', 'y', 'l', 'u', 'l'], ['h', 'a', 'f', 't', 'a'], ['k', 'a', 's', 'ı', 'm'], ['m', 'a', 'y', 'ı', 's'], ['n', 'i', 's', 'a', 'n'], ['p', 'a', 'z', 'a', 'r'], ['s', 'i', 'm', 'd', 'i'], ['s', 'o', 'n', 'r', 'a'], ['s', 'u', 'b', 'a', 't'], ['y', 'a', 'r', 'ı', 'n'], ['c', 'u', 'm', 'a'], ['e', 'k', 'i', 'm'], ['m', 'a', 'r', 't'], ['o', 'c', 'a', 'k'], ['o', 'n', 'c', 'e'], ['s', 'a', 'a', 't'], ['s', 'a', 'l', 'ı'], ['s', 'e', 'n', 'e'], ['a', 'g', 'u'], ['a', 'r', 'a'], ['c', 'a', 'r'], ['c', 'm', 't'], ['c', 'r', 's'], ['c', 'u', 'm'], ['d', 'u', 'n'], ['e', 'k', 'i'], ['e', 'y', 'l'], ['g', 'm', 't'], ['g', 'u', 'n'], ['h', 'a', 'z'], ['k', 'a', 's'], ['m', 'a', 'r'], ['m', 'a', 'y'], ['n', 'i', 's'], ['o', 'c', 'a'], ['p', 'a', 'z'], ['p', 'e', 'r'], ['p', 'r', 's'], ['p', 'z', 't'], ['s', 'a', 'l'], ['s', 'u', 'b'], ['t', 'e', 'm'], ['u', 't', 'c'], ['y', 'ı', 'l'], ['a', 'g'], ['a', 'm'], ['a', 'r'], ['a', 'y'], ['d', 'k'], ['e', 'k'], ['e', 'y'], ['h', 'a'], ['h', 'f'], ['k', 'a'], ['n', 'i'], ['o', 'c'], ['o', 'o'], ['o', 's'], ['p', 'm'], ['s', 'a'], ['s', 'n'], ['s', 'u'], ['t', 'e'], ['v', 'e'], [' '], ['\''], ['+'], [','], ['-'], ['.'], ['/'], [':'], [';'], ['@'], ['['], [']'], ['z'], ['|']] }

/-- internal/data/tr.go: `tr_CY_Locale`. -/
def tr_CYLang : LangData := tr_CYDict

/-- internal/data/twq.go: `twq_Locale`. -/
def twqLang : LangData := { twqDict with
  knownWords :=
   [['t', 'h', 'i', 's', ' ', 'm', 'i', 'n', 'u', 't', 'e'], ['l', 'a', 's', 't', ' ', 'm', 'o', 'n', 't', 'h'], ['n', 'e', 'x', 't', ' ', 'm', 'o', 'n', 't', 'h'], ['t', 'h', 'i', 's', ' ', 'm', 'o', 'n', 't', 'h'], ['z', 'a', 'a', 'r', 'i', 'k', 'a', 'y', ' ', 'b'], ['a', 'l', 'h', 'a', 'm', 'i', 'i', 's', 'a'], ['d', 'e', 'e', 's', 'a', 'n', 'b', 'u', 'r'], ['f', 'e', 'e', 'w', 'i', 'r', 'i', 'y', 'e'], ['l', 'a', 's', 't', ' ', 'w', 'e', 'e', 'k'], ['l', 'a', 's', 't', ' ', 'y', 'e', 'a', 'r'], ['n', 'e', 'x', 't', ' ', 'w', 'e', 'e', 'k'], ['n', 'e', 'x', 't', ' ', 'y', 'e', 'a', 'r'], ['n', 'o', 'o', 'w', 'a', 'n', 'b', 'u', 'r'], ['s', 'e', 'k', 't', 'a', 'n', 'b', 'u', 'r'], ['t', 'h', 'i', 's', ' ', 'h', 'o', 'u', 'r'], ['t', 'h', 'i', 's', ' ', 'w', 'e', 'e', 'k'], ['t', 'h', 'i', 's', ' ', 'y', 'e', 'a', 'r'], ['a', 't', 'a', 'l', 'a', 'a', 't', 'a'], ['o', 'k', 't', 'o', 'o', 'b', 'u', 'r'], ['s', 'u', 'b', 'b', 'a', 'a', 'h', 'i'], ['z', 'a', 'n', 'w', 'i', 'y', 'e'], ['a', 'l', 'a', 'r', 'b', 'a'], ['a', 'l', 'h', 'a', 'd', 'i'], ['a', 'l', 'z', 'u', 'm', 'a'], ['a', 's', 'i', 'b', 't', 'i'], ['a', 't', 'i', 'n', 'n', 'i'], ['a', 'w', 'i', 'r', 'i', 'l'], ['m', 'i', 'n', 'i', 't', 'i'], ['g', 'u', 'u', 'r', 'u'], ['h', 'a', 'n', 'd', 'u'], ['j', 'i', 'i', 'r', 'i'], ['m', 'a', 'r', 's', 'i'], ['z', 'a', 'a', 'r', 'i'], ['z', 'u', 'w', 'e', 'ŋ'], ['z', 'u', 'y', 'y', 'e'], ['h', 'e', 'b', 'u'], ['m', 'i', 't', 'i'], ['s', 'u', 'b', 'a'], ['a', 'l', 'a'], ['a', 'l', 'h'], ['a', 'l', 'm'], ['a', 'l', 'z'], ['a', 's', 'i'], ['a', 't', 'a'], ['a', 't', 'i'], ['a', 'w', 'i'], ['d', 'e', 'e'], ['f', 'e', 'e'], ['g', 'm', 't'], ['h', 'o', 'o'], ['m', 'a', 'r'], ['n', 'o', 'o'], ['n', 'o', 'w'], ['o', 'k', 't'], ['s', 'e', 'k'], ['u', 't', 'c'], ['z', 'a', 'n'], ['z', 'u', 'w'], ['z', 'u', 'y'], ['a', 'm'], ['b', 'i'], ['m', 'e'], ['p', 'm'], ['u', 't'], [' '], ['\''], ['+'], [','], ['-'], ['.'], ['/'], [':'], [';'], ['@'], ['['], [']'], ['z'], ['|']] }

/-- internal/data/tzm.go: `tzm_Locale`. -/
def tzmLang : LangData := { tzmDict with
  knownWords :=
   [['t', 'h', 'i', 's', ' ', 'm', 'i', 'n', 'u', 't', 'e'], ['d', 'e', 'f', 'f', 'i', 'r', ' ', 'a', 'z', 'a'], ['l', 'a', 's', 't', ' ', 'm', 'o', 'n', 't', 'h'], ['n', 'e', 'x', 't', ' ', 'm', 'o', 'n', 't', 'h'], ['t', 'h', 'i', 's', ' ', 'm', 'o', 'n', 't', 'h'], ['l', 'a', 's', 't', ' ', 'w', 'e', 'e', 'k'], ['l', 'a', 's', 't', ' ', 'y', 'e', 'a', 'r'], ['n', 'e', 'x', 't', ' ', 'w', 'e', 'e', 'k'], ['n', 'e', 'x', 't', ' ', 'y', 'e', 'a', 'r'], ['t', 'h', 'i', 's', ' ', 'h', 'o', 'u', 'r'], ['t', 'h', 'i', 's', ' ', 'w', 'e', 'e', 'k'], ['t', 'h', 'i', 's', ' ', 'y', 'e', 'a', 'r'], ['z', 'd', 'a', 't', ' ', 'a', 'z', 'a', 'l'], ['a', 's', 's', 'e', 'g', 'g', 'a', 's'], ['c', 'u', 't', 'a', 'n', 'b', 'i', 'r'], ['d', 'u', 'j', 'a', 'n', 'b', 'i', 'r'], ['y', 'e', 'b', 'r', 'a', 'y', 'e', 'r'], ['y', 'e', 'n', 'n', 'a', 'y', 'e', 'r'], ['a', 's', 'i', 'd', 'y', 'a', 's'], ['a', 's', 'i', 'm', 'w', 'a', 's'], ['a', 's', 's', 'e', 'n', 'a', 't'], ['i', 'm', 'a', 'l', 'a', 's', 's'], ['n', 'w', 'a', 'n', 'b', 'i', 'r'], ['t', 'a', 's', 'r', 'a', 'g', 't'], ['a', 's', 'a', 'm', 'a', 's'], ['a', 's', 'e', 'k', 'k', 'a'], ['a', 's', 'i', 'n', 'a', 's'], ['k', 't', 'u', 'b', 'e', 'r'], ['t', 'u', 's', 'd', 'a', 't'], ['t', 'u', 's', 'n', 'a', 't'], ['y', 'u', 'l', 'y', 'u', 'z'], ['a', 'k', 'r', 'a', 's'], ['a', 'k', 'w', 'a', 's'], ['a', 'y', 'n', 'a', 's'], ['i', 'b', 'r', 'i', 'r'], ['m', 'a', 'y', 'y', 'u'], ['y', 'u', 'n', 'y', 'u'], ['a', 's', 's', 'a'], ['a', 'y', 'u', 'r'], ['m', 'a', 'r', 's'], ['ɣ', 'u', 'c', 't'], ['a', 'k', 'r'], ['a', 'k', 'w'], ['a', 's', 'a'], ['a', 's', 'd'], ['a', 's', 'm'], ['a', 's', 'n'], ['a', 's', 's'], ['a', 'y', 'n'], ['c', 'u', 't'], ['d', 'u', 'j'], ['g', 'm', 't'], ['i', 'b', 'r'], ['k', 't', 'u'], ['m', 'a', 'r'], ['m', 'a', 'y'], ['n', 'o', 'w'], ['n', 'w', 'a'], ['u', 't', 'c'], ['y', 'e', 'b'], ['y', 'e', 'n'], ['y', 'u', 'l'], ['y', 'u', 'n'], ['ɣ', 'u', 'c'], ['a', 'm'], ['p', 'm'], [' '], ['\''], ['+'], [','], ['-'], ['.'], ['/'], [':'], [';'], ['@'], ['['], [']'], ['z'], ['|']] }

/-- internal/data/ug.go: `ug_Locale`. -/
def ugLang : LangData := { ugDict with
  relativeRegexes :=
   [(.seqs [.grp 1 (.number), .lit [' ', 'س', 'ې', 'ك', 'ۇ', 'ن', 'ت', 'ت', 'ى', 'ن', ' ', 'ك', 'ې', 'ي', 'ى', 'ن']], [.lit ['i', 'n', ' '], .ref 1, .lit [' ', 's', 'e', 'c', 'o', 'n', 'd']]),
    (.seqs [.grp 1 (.number), .lit [' ', 'س', 'ا', 'ي', 'ە', 'ت', 'ت', 'ى', 'ن', ' ', 'ك', 'ې', 'ي', 'ى', 'ن']], [.lit ['i', 'n', ' '], .ref 1, .lit [' ', 'h', 'o', 'u', 'r']]),
    (.seqs [.grp 1 (.number), .lit [' ', 'س', 'ې', 'ك', 'ۇ', 'ن', 'ت', ' ', 'ي', 'ى', 'ل', 'گ', 'ى', 'ر', 'ى']], [.ref 1, .lit [' ', 's', 'e', 'c', 'o', 'n', 'd', ' ', 'a', 'g', 'o']]),
    (.seqs [.grp 1 (.number), .lit [' ', 'م', 'ى', 'ن', 'ۇ', 'ت', 'ت', 'ى', 'ن', ' ', 'ك', 'ې', 'ي', 'ى', 'ن']], [.lit ['i', 'n', ' '], .ref 1, .lit [' ', 'm', 'i', 'n', 'u', 't', 'e']]),
    (.seqs [.grp 1 (.number), .lit [' ', 'ھ', 'ە', 'پ', 'ت', 'ى', 'د', 'ى', 'ن', ' ', 'ك', 'ې', 'ي', 'ى', 'ن']], [.lit ['i', 'n', ' '], .ref 1, .lit [' ', 'w', 'e', 'e', 'k']]),
    (.seqs [.grp 1 (.number), .lit [' ', 'س', 'ا', 'ي', 'ە', 'ت', ' ', 'ي', 'ى', 'ل', 'گ', 'ى', 'ر', 'ى']], [.ref 1, .lit [' ', 'h', 'o', 'u', 'r', ' ', 'a', 'g', 'o']]),
    (.seqs [.grp 1 (.number), .lit [' ', 'م', 'ى', 'ن', 'ۇ', 'ت', ' ', 'ي', 'ى', 'ل', 'گ', 'ى', 'ر', 'ى']], [.ref 1, .lit [' ', 'm', 'i', 'n', 'u', 't', 'e', ' ', 'a', 'g', 'o']]),
    (.seqs [.grp 1 (.number), .lit [' ', 'ھ', 'ە', 'پ', 'ت', 'ە', ' ', 'ي', 'ى', 'ل', 'گ', 'ى', 'ر', 'ى']], [.ref 1, .lit [' ', 'w', 'e', 'e', 'k', ' ', 'a', 'g', 'o']]),
    (.seqs [.grp 1 (.number), .lit [' ', 'ك', 'ۈ', 'ن', 'د', 'ى', 'ن', ' ', 'ك', 'ې', 'ي', 'ى', 'ن']], [.lit ['i', 'n', ' '], .ref 1, .lit [' ', 'd', 'a', 'y']]),
    (.seqs [.grp 1 (.number), .lit [' ', 'ي', 'ا', 'ي', 'د', 'ى', 'ن', ' ', 'ك', 'ې', 'ي', 'ى', 'ن']], [.lit ['i', 'n', ' '], .ref 1, .lit [' ', 'm', 'o', 'n', 't', 'h']]),
    (.seqs [.grp 1 (.number), .lit [' ', 'ي', 'ى', 'ل', 'د', 'ى', 'ن', ' ', 'ك', 'ې', 'ي', 'ى', 'ن']], [.lit ['i', 'n', ' '], .ref 1, .lit [' ', 'y', 'e', 'a', 'r']]),
    (.seqs [.grp 1 (.number), .lit [' ', 'ك', 'ۈ', 'ن', ' ', 'ي', 'ى', 'ل', 'گ', 'ى', 'ر', 'ى']], [.ref 1, .lit [' ', 'd', 'a', 'y', ' ', 'a', 'g', 'o']]),
    (.seqs [.grp 1 (.number), .lit [' ', 'ي', 'ا', 'ي', ' ', 'ي', 'ى', 'ل', 'گ', 'ى', 'ر', 'ى']], [.ref 1, .lit [' ', 'm', 'o', 'n', 't', 'h', ' ', 'a', 'g', 'o']]),
    (.seqs [.grp 1 (.number), .lit [' ', 'ي', 'ى', 'ل', ' ', 'ي', 'ى', 'ل', 'گ', 'ى', 'ر', 'ى']], [.ref 1, .lit [' ', 'y', 'e', 'a', 'r', ' ', 'a', 'g', 'o']])],
  rxCombined := some (.seqs [.grp 1 (.alts [.bos, .cls true [.letter, .mark, .digit], .lit ['_']]), .grp 2 (.alts [.seqs [.number, .lit [' ', 'س', 'ې', 'ك', 'ۇ', 'ن', 'ت', 'ت', 'ى', 'ن', ' ', 'ك', 'ې', 'ي', 'ى', 'ن']], .seqs [.number, .lit [' ', 'س', 'ا', 'ي', 'ە', 'ت', 'ت', 'ى', 'ن', ' ', 'ك', 'ې', 'ي', 'ى', 'ن']], .seqs [.number, .lit [' ', 'س', 'ې', 'ك', 'ۇ', 'ن', 'ت', ' ', 'ي', 'ى', 'ل', 'گ', 'ى', 'ر', 'ى']], .seqs [.number, .lit [' ', 'م', 'ى', 'ن', 'ۇ', 'ت', 'ت', 'ى', 'ن', ' ', 'ك', 'ې', 'ي', 'ى', 'ن']], .seqs [.number, .lit [' ', 'ھ', 'ە', 'پ', 'ت', 'ى', 'د', 'ى', 'ن', ' ', 'ك', 'ې', 'ي', 'ى', 'ن']], .seqs [.number, .lit [' ', 'س', 'ا', 'ي', 'ە', 'ت', ' ', 'ي', 'ى', 'ل', 'گ', 'ى', 'ر', 'ى']], .seqs [.number, .lit [' ', 'م', 'ى', 'ن', 'ۇ', 'ت', ' ', 'ي', 'ى', 'ل', 'گ', 'ى', 'ر', 'ى']], .seqs [.number, .lit [' ', 'ھ', 'ە', 'پ', 'ت', 'ە', ' ', 'ي', 'ى', 'ل', 'گ', 'ى', 'ر', 'ى']], .seqs [.number, .lit [' ', 'ك', 'ۈ', 'ن', 'د', 'ى', 'ن', ' ', 'ك', 'ې', 'ي', 'ى', 'ن']], .seqs [.number, .lit [' ', 'ي', 'ا', 'ي', 'د', 'ى', 'ن', ' ', 'ك', 'ې', 'ي', 'ى', 'ن']], .seqs [.number, .lit [' ', 'ي', 'ى', 'ل', 'د', 'ى', 'ن', ' ', 'ك', 'ې', 'ي', 'ى', 'ن']], .seqs [.number, .lit [' ', 'ك', 'ۈ', 'ن', ' ', 'ي', 'ى', 'ل', 'گ', 'ى', 'ر', 'ى']], .seqs [.number, .lit [' ', 'ي', 'ا', 'ي', ' ', 'ي', 'ى', 'ل', 'گ', 'ى', 'ر', 'ى']], .seqs [.number, .lit [' ', 'ي', 'ى', 'ل', ' ', 'ي', 'ى', 'ل', 'گ', 'ى', 'ر', 'ى']]]), .grp 3 (.alts [.eos, .cls true [.letter, .mark, .digit], .lit ['_']])], 3),
  rxExact := some (.seqs [.bos, .grp 1 (.alts [.seqs [.number, .lit [' ', 'س', 'ې', 'ك', 'ۇ', 'ن', 'ت', 'ت', 'ى', 'ن', ' ', 'ك', 'ې', 'ي', 'ى', 'ن']], .seqs [.number, .lit [' ', 'س', 'ا', 'ي', 'ە', 'ت', 'ت', 'ى', 'ن', ' ', 'ك', 'ې', 'ي', 'ى', 'ن']], .seqs [.number, .lit [' ', 'س', 'ې', 'ك', 'ۇ', 'ن', 'ت', ' ', 'ي', 'ى', 'ل', 'گ', 'ى', 'ر', 'ى']], .seqs [.number, .lit [' ', 'م', 'ى', 'ن', 'ۇ', 'ت', 'ت', 'ى', 'ن', ' ', 'ك', 'ې', 'ي', 'ى', 'ن']], .seqs [.number, .lit [' ', 'ھ', 'ە', 'پ', 'ت', 'ى', 'د', 'ى', 'ن', ' ', 'ك', 'ې', 'ي', 'ى', 'ن']], .seqs [.number, .lit [' ', 'س', 'ا', 'ي', 'ە', 'ت', ' ', 'ي', 'ى', 'ل', 'گ', 'ى', 'ر', 'ى']], .seqs [.number, .lit [' ', 'م', 'ى', 'ن', 'ۇ', 'ت', ' ', 'ي', 'ى', 'ل', 'گ', 'ى', 'ر', 'ى']], .seqs [.number, .lit [' ', 'ھ', 'ە', 'پ', 'ت', 'ە', ' ', 'ي', 'ى', 'ل', 'گ', 'ى', 'ر', 'ى']], .seqs [.number, .lit [' ', 'ك', 'ۈ', 'ن', 'د', 'ى', 'ن', ' ', 'ك', 'ې', 'ي', 'ى', 'ن']], .seqs [.number, .lit [' ', 'ي', 'ا', 'ي', 'د', 'ى', 'ن', ' ', 'ك', 'ې', 'ي', 'ى', 'ن']], .seqs [.number, .lit [' ', 'ي', 'ى', 'ل', 'د', 'ى', 'ن', ' ', 'ك', 'ې', 'ي', 'ى', 'ن']], .seqs [.number, .lit [' ', 'ك', 'ۈ', 'ن', ' ', 'ي', 'ى', 'ل', 'گ', 'ى', 'ر', 'ى']], .seqs [.number, .lit [' ', 'ي', 'ا', 'ي', ' ', 'ي', 'ى', 'ل', 'گ', 'ى', 'ر', 'ى']], .seqs [.number, .lit [' ', 'ي', 'ى', 'ل', ' ', 'ي', 'ى', 'ل', 'گ', 'ى', 'ر', 'ى']]]), .eos]),
  knownWords :=
   [['ي', 'ۆ', 'ت', 'ك', 'ە', 'ن', ' ', 'ھ', 'ە', 'پ', 'ت', 'ە'], ['چ', 'ۈ', 'ش', 'ت', 'ى', 'ن', ' ', 'ب', 'ۇ', 'ر', 'ۇ', 'ن'], ['چ', 'ۈ', 'ش', 'ت', 'ى', 'ن', ' ', 'ك', 'ې', 'ي', 'ى', 'ن'], ['t', 'h', 'i', 's', ' ', 'm', 'i', 'n', 'u', 't', 'e'], ['ك', 'ې', 'ل', 'ە', 'ر', ' ', 'ھ', 'ە', 'پ', 'ت', 'ە'], ['ي', 'ۆ', 'ت', 'ك', 'ە', 'ن', ' ', 'ي', 'ا', 'ي'], ['ي', 'ۆ', 'ت', 'ك', 'ە', 'ن', ' ', 'ي', 'ى', 'ل'], ['t', 'h', 'i', 's', ' ', 'h', 'o', 'u', 'r'], ['ك', 'ې', 'ل', 'ە', 'ر', ' ', 'ي', 'ا', 'ي'], ['ك', 'ې', 'ل', 'ە', 'ر', ' ', 'ي', 'ى', 'ل'], ['ب', 'ۇ', ' ', 'ھ', 'ە', 'پ', 'ت', 'ە'], ['س', 'ې', 'ن', 'ت', 'ە', 'ب', 'ى', 'ر'], ['س', 'ە', 'ي', 'ش', 'ە', 'ن', 'ب', 'ە'], ['ي', 'ۆ', 'ك', 'ت', 'ە', 'ب', 'ى', 'ر'], ['ي', 'ە', 'ك', 'ش', 'ە', 'ن', 'ب', 'ە'], ['پ', 'ە', 'ي', 'ش', 'ە', 'ن', 'ب', 'ە'], ['چ', 'ا', 'ر', 'ش', 'ە', 'ن', 'ب', 'ە'], ['ت', 'ۈ', 'ن', 'ۈ', 'گ', 'ۈ', 'ن'], ['د', 'ۈ', 'ش', 'ە', 'ن', 'ب', 'ە'], ['د', 'ې', 'ك', 'ا', 'ب', 'ى', 'ر'], ['ن', 'و', 'ي', 'ا', 'ب', 'ى', 'ر'], ['ي', 'ا', 'ۋ', 'غ', 'ۇ', 'س', 'ت'], ['ب', 'ۇ', ' ', 'ي', 'ا', 'ي'], ['ب', 'ۇ', ' ', 'ي', 'ى', 'ل'], ['س', 'ې', 'ك', 'ۇ', 'ن', 'ت'], ['ف', 'ې', 'ۋ', 'ر', 'ا', 'ل'], ['ي', 'ا', 'ن', 'ۋ', 'ا', 'ر'], ['ي', 'ا', 'پ', 'ر', 'ې', 'ل'], ['ب', 'ۈ', 'گ', 'ۈ', 'ن'], ['س', 'ا', 'ي', 'ە', 'ت'], ['ش', 'ە', 'ن', 'ب', 'ە'], ['م', 'ى', 'ن', 'ۇ', 'ت'], ['ي', 'ى', 'ي', 'ۇ', 'ل'], ['ي', 'ى', 'ي', 'ۇ', 'ن'], ['ھ', 'ە', 'پ', 'ت', 'ە'], ['ج', 'ۈ', 'م', 'ە'], ['م', 'ا', 'ر', 'ت'], ['ي', 'ە', 'ت', 'ە'], ['g', 'm', 't'], ['n', 'o', 'w'], ['u', 't', 'c'], ['ك', 'ۈ', 'ن'], ['م', 'ا', 'ي'], ['ي', 'ا', 'ي'], ['ي', 'ى', 'ل'], ['a', 'm'], ['p', 'm'], ['ج', 'ۈ'], ['د', 'ۈ'], ['س', 'ە'], ['ش', 'ە'], ['ي', 'ە'], ['پ', 'ە'], ['چ', 'ا'], ['چ', 'ب'], ['چ', 'ك'], [' '], ['\''], ['+'], [','], ['-'], ['.'], ['/'], [':'], [';'], ['@'], ['['], [']'], ['z'], ['|']] }

/-- internal/data/uk.go: `uk_Locale`. -/
def ukLang : LangData := { ukDict with
  simplifications :=
   [(.seqs [.grp 1 (.alts [.bos, .noWord]), .cls false [.rng 'О' 'О', .rng 'о' 'о', .rng 'ᲂ' 'ᲂ'], .cls false [.rng 'Д' 'Д', .rng 'д' 'д', .rng 'ᲁ' 'ᲁ'], .grp 2 (.alts [.seqs [.cls false [.rng 'Н' 'Н', .rng 'н' 'н'], .cls false [.rng 'А' 'А', .rng 'а' 'а']], .seqs [.cls false [.rng 'Н' 'Н', .rng 'н' 'н'], .cls false [.rng 'У' 'У', .rng 'у' 'у']], .seqs [.cls false [.rng 'Н' 'Н', .rng 'н' 'н'], .cls false [.rng 'І' 'І', .rng 'і' 'і']], .seqs [.cls false [.rng 'Н' 'Н', .rng 'н' 'н'], .cls false [.rng 'О' 'О', .rng 'о' 'о', .rng 'ᲂ' 'ᲂ'], .cls false [.rng 'І' 'І', .rng 'і' 'і']], .seqs [.cls false [.rng 'Н' 'Н', .rng 'н' 'н'], .cls false [.rng 'І' 'І', .rng 'і' 'і'], .cls false [.rng 'Є' 'Є', .rng 'є' 'є'], .cls false [.rng 'І' 'І', .rng 'і' 'і']], .seqs [.cls false [.rng 'И' 'И', .rng 'и' 'и'], .cls false [.rng 'Н' 'Н', .rng 'н' 'н']], .seqs [.cls false [.rng 'Н' 'Н', .rng 'н' 'н'], .cls false [.rng 'І' 'І', .rng 'і' 'і'], .cls false [.rng 'И' 'И', .rng 'и' 'и']]]), .grp 3 (.alts [.eos, .noWord])], [.ref 1, .lit ['1'], .ref 2]),
    (.seqs [.grp 1 (.alts [.bos, .noWord]), .cls false [.rng 'Д' 'Д', .rng 'д' 'д', .rng 'ᲁ' 'ᲁ'], .cls false [.rng 'В' 'В', .rng 'в' 'в', .rng 'ᲀ' 'ᲀ'], .grp 2 (.alts [.cls false [.rng 'А' 'А', .rng 'а' 'а'], .cls false [.rng 'І' 'І', .rng 'і' 'і'], .seqs [.cls false [.rng 'О' 'О', .rng 'о' 'о', .rng 'ᲂ' 'ᲂ'], .cls false [.rng 'Є' 'Є', .rng 'є' 'є']], .seqs [.cls false [.rng 'О' 'О', .rng 'о' 'о', .rng 'ᲂ' 'ᲂ'], .cls false [.rng 'Х' 'Х', .rng 'х' 'х']]]), .grp 3 (.alts [.eos, .noWord])], [.ref 1, .lit ['2'], .ref 2]),
    (.seqs [.grp 1 (.alts [.bos, .noWord]), .cls false [.rng 'П' 'П', .rng 'п' 'п'], .cls false [.rng 'А' 'А', .rng 'а' 'а'], .cls false [.rng 'Р' 'Р', .rng 'р' 'р'], .cls false [.rng 'А' 'А', .rng 'а' 'а', .rng 'У' 'У', .rng 'у' 'у', .rng 'І' 'І', .rng 'і' 'і'], .grp 2 (.alts [.eos, .noWord])], [.ref 1, .lit ['2'], .ref 2]),
    (.seqs [.grp 1 (.alts [.bos, .noWord]), .cls false [.rng 'Т' 'Т', .rng 'т' 'т', .rng 'ᲄ' 'ᲄ', .rng 'ᲅ' 'ᲅ'], .cls false [.rng 'Р' 'Р', .rng 'р' 'р'], .cls false [.rng 'И' 'И', .rng 'и' 'и'], .grp 2 (.alts [.eos, .noWord])], [.ref 1, .lit ['3'], .ref 2]),
    (.seqs [.grp 1 (.alts [.bos, .noWord]), .cls false [.rng 'Ч' 'Ч', .rng 'ч' 'ч'], .cls false [.rng 'О' 'О', .rng 'о' 'о', .rng 'ᲂ' 'ᲂ'], .cls false [.rng 'Т' 'Т', .rng 'т' 'т', .rng 'ᲄ' 'ᲄ', .rng 'ᲅ' 'ᲅ'], .cls false [.rng 'И' 'И', .rng 'и' 'и'], .cls false [.rng 'Р' 'Р', .rng 'р' 'р'], .cls false [.rng 'И' 'И', .rng 'и' 'и'], .grp 2 (.alts [.eos, .noWord])], [.ref 1, .lit ['4'], .ref 2]),
    (.seqs [.grp 1 (.alts [.bos, .noWord]), .cls false [.rng 'П' 'П', .rng 'п' 'п'], .lit ['\''], .cls false [.rng 'Я' 'Я', .rng 'я' 'я'], .cls false [.rng 'Т' 'Т', .rng 'т' 'т', .rng 'ᲄ' 'ᲄ', .rng 'ᲅ' 'ᲅ'], .cls false [.rng 'Ь' 'Ь', .rng 'ь' 'ь'], .grp 2 (.alts [.eos, .noWord])], [.ref 1, .lit ['5'], .ref 2]),
    (.seqs [.grp 1 (.alts [.bos, .noWord]), .cls false [.rng 'Ш' 'Ш', .rng 'ш' 'ш'], .cls false [.rng 'І' 'І', .rng 'і' 'і'], .cls false [.rng 'С' 'С', .rng 'с' 'с', .rng 'ᲃ' 'ᲃ'], .cls false [.rng 'Т' 'Т', .rng 'т' 'т', .rng 'ᲄ' 'ᲄ', .rng 'ᲅ' 'ᲅ'], .cls false [.rng 'Ь' 'Ь', .rng 'ь' 'ь'], .grp 2 (.alts [.eos, .noWord])], [.ref 1, .lit ['6'], .ref 2]),
    (.seqs [.grp 1 (.alts [.bos, .noWord]), .cls false [.rng 'С' 'С', .rng 'с' 'с', .rng 'ᲃ' 'ᲃ'], .cls false [.rng 'І' 'І', .rng 'і' 'і'], .cls false [.rng 'М' 'М', .rng 'м' 'м'], .grp 2 (.alts [.eos, .noWord])], [.ref 1, .lit ['7'], .ref 2]),
    (.seqs [.grp 1 (.alts [.bos, .noWord]), .cls false [.rng 'В' 'В', .rng 'в' 'в', .rng 'ᲀ' 'ᲀ'], .cls false [.rng 'І' 'І', .rng 'і' 'і'], .cls false [.rng 'С' 'С', .rng 'с' 'с', .rng 'ᲃ' 'ᲃ'], .cls false [.rng 'І' 'І', .rng 'і' 'і'], .cls false [.rng 'М' 'М', .rng 'м' 'м'], .grp 2 (.alts [.eos, .noWord])], [.ref 1, .lit ['8'], .ref 2]),
    (.seqs [.grp 1 (.alts [.bos, .noWord]), .cls false [.rng 'Д' 'Д', .rng 'д' 'д', .rng 'ᲁ' 'ᲁ'], .cls false [.rng 'Е' 'Е', .rng 'е' 'е'], .cls false [.rng 'В' 'В', .rng 'в' 'в', .rng 'ᲀ' 'ᲀ'], .lit ['\''], .cls false [.rng 'Я' 'Я', .rng 'я' 'я'], .cls false [.rng 'Т' 'Т', .rng 'т' 'т', .rng 'ᲄ' 'ᲄ', .rng 'ᲅ' 'ᲅ'], .cls false [.rng 'Ь' 'Ь', .rng 'ь' 'ь'], .grp 2 (.alts [.eos, .noWord])], [.ref 1, .lit ['9'], .ref 2]),
    (.seqs [.grp 1 (.alts [.bos, .noWord]), .cls false [.rng 'Д' 'Д', .rng 'д' 'д', .rng 'ᲁ' 'ᲁ'], .cls false [.rng 'Е' 'Е', .rng 'е' 'е'], .cls false [.rng 'С' 'С', .rng 'с' 'с', .rng 'ᲃ' 'ᲃ'], .cls false [.rng 'Я' 'Я', .rng 'я' 'я'], .cls false [.rng 'Т' 'Т', .rng 'т' 'т', .rng 'ᲄ' 'ᲄ', .rng 'ᲅ' 'ᲅ'], .cls false [.rng 'Ь' 'Ь', .rng 'ь' 'ь'], .grp 2 (.alts [.eos, .noWord])], [.ref 1, .lit ['1', '0'], .ref 2]),
    (.seqs [.grp 1 (.alts [.bos, .noWord]), .cls false [.rng 'О' 'О', .rng 'о' 'о', .rng 'ᲂ' 'ᲂ'], .cls false [.rng 'Д' 'Д', .rng 'д' 'д', .rng 'ᲁ' 'ᲁ'], .cls false [.rng 'И' 'И', .rng 'и' 'и'], .cls false [.rng 'Н' 'Н', .rng 'н' 'н'], .cls false [.rng 'А' 'А', .rng 'а' 'а'], .cls false [.rng 'Д' 'Д', .rng 'д' 'д', .rng 'ᲁ' 'ᲁ'], .cls false [.rng 'Ц' 'Ц', .rng 'ц' 'ц'], .cls false [.rng 'Я' 'Я', .rng 'я' 'я'], .cls false [.rng 'Т' 'Т', .rng 'т' 'т', .rng 'ᲄ' 'ᲄ', .rng 'ᲅ' 'ᲅ'], .cls false [.rng 'Ь' 'Ь', .rng 'ь' 'ь'], .grp 2 (.alts [.eos, .noWord])], [.ref 1, .lit ['1', '1'], .ref 2]),
    (.seqs [.grp 1 (.alts [.bos, .noWord]), .cls false [.rng 'Д' 'Д', .rng 'д' 'д', .rng 'ᲁ' 'ᲁ'], .cls false [.rng 'В' 'В', .rng 'в' 'в', .rng 'ᲀ' 'ᲀ'], .cls false [.rng 'А' 'А', .rng 'а' 'а'], .cls false [.rng 'Н' 'Н', .rng 'н' 'н'], .cls false [.rng 'А' 'А', .rng 'а' 'а'], .cls false [.rng 'Д' 'Д', .rng 'д' 'д', .rng 'ᲁ' 'ᲁ'], .cls false [.rng 'Ц' 'Ц', .rng 'ц' 'ц'], .cls false [.rng 'Я' 'Я', .rng 'я' 'я'], .cls false [.rng 'Т' 'Т', .rng 'т' 'т', .rng 'ᲄ' 'ᲄ', .rng 'ᲅ' 'ᲅ'], .cls false [.rng 'Ь' 'Ь', .rng 'ь' 'ь'], .grp 2 (.alts [.eos, .noWord])], [.ref 1, .lit ['1', '2'], .ref 2]),
    (.seqs [.grp 1 (.alts [.bos, .noWord]), .cls false [.rng 'П' 'П', .rng 'п' 'п'], .lit ['\''], .cls false [.rng 'Я' 'Я', .rng 'я' 'я'], .cls false [.rng 'Т' 'Т', .rng 'т' 'т', .rng 'ᲄ' 'ᲄ', .rng 'ᲅ' 'ᲅ'], .cls false [.rng 'Н' 'Н', .rng 'н' 'н'], .cls false [.rng 'А' 'А', .rng 'а' 'а'], .cls false [.rng 'Д' 'Д', .rng 'д' 'д', .rng 'ᲁ' 'ᲁ'], .cls false [.rng 'Ц' 'Ц', .rng 'ц' 'ц'], .cls false [.rng 'Я' 'Я', .rng 'я' 'я'], .cls false [.rng 'Т' 'Т', .rng 'т' 'т', .rng 'ᲄ' 'ᲄ', .rng 'ᲅ' 'ᲅ'], .cls false [.rng 'Ь' 'Ь', .rng 'ь' 'ь'], .grp 2 (.alts [.eos, .noWord])], [.ref 1, .lit ['1', '5'], .ref 2]),
    (.seqs [.grp 1 (.alts [.bos, .noWord]), .cls false [.rng 'Д' 'Д', .rng 'д' 'д', .rng 'ᲁ' 'ᲁ'], .cls false [.rng 'В' 'В', .rng 'в' 'в', .rng 'ᲀ' 'ᲀ'], .cls false [.rng 'А' 'А', .rng 'а' 'а'], .cls false [.rng 'Д' 'Д', .rng 'д' 'д', .rng 'ᲁ' 'ᲁ'], .cls false [.rng 'Ц' 'Ц', .rng 'ц' 'ц'], .cls false [.rng 'Я' 'Я', .rng 'я' 'я'], .cls false [.rng 'Т' 'Т', .rng 'т' 'т', .rng 'ᲄ' 'ᲄ', .rng 'ᲅ' 'ᲅ'], .cls false [.rng 'Ь' 'Ь', .rng 'ь' 'ь'], .grp 2 (.alts [.eos, .noWord])], [.ref 1, .lit ['2', '0'], .ref 2]),
    (.seqs [.grp 1 (.alts [.bos, .noWord]), .cls false [.rng 'Т' 'Т', .rng 'т' 'т', .rng 'ᲄ' 'ᲄ', .rng 'ᲅ' 'ᲅ'], .cls false [.rng 'Р' 'Р', .rng 'р' 'р'], .cls false [.rng 'И' 'И', .rng 'и' 'и'], .cls false [.rng 'Д' 'Д', .rng 'д' 'д', .rng 'ᲁ' 'ᲁ'], .cls false [.rng 'Ц' 'Ц', .rng 'ц' 'ц'], .cls false [.rng 'Я' 'Я', .rng 'я' 'я'], .cls false [.rng 'Т' 'Т', .rng 'т' 'т', .rng 'ᲄ' 'ᲄ', .rng 'ᲅ' 'ᲅ'], .cls false [.rng 'Ь' 'Ь', .rng 'ь' 'ь'], .grp 2 (.alts [.eos, .noWord])], [.ref 1, .lit ['3', '0'], .ref 2]),
    (.seqs [.grp 1 (.alts [.bos, .noWord]), .cls false [.rng 'С' 'С', .rng 'с' 'с', .rng 'ᲃ' 'ᲃ'], .cls false [.rng 'О' 'О', .rng 'о' 'о', .rng 'ᲂ' 'ᲂ'], .cls false [.rng 'Р' 'Р', .rng 'р' 'р'], .cls false [.rng 'О' 'О', .rng 'о' 'о', .rng 'ᲂ' 'ᲂ'], .cls false [.rng 'К' 'К', .rng 'к' 'к'], .grp 2 (.alts [.eos, .noWord])], [.ref 1, .lit ['4', '0'], .ref 2]),
    (.seqs [.grp 1 (.alts [.bos, .noWord]), .cls false [.rng 'П' 'П', .rng 'п' 'п'], .lit ['\''], .cls false [.rng 'Я' 'Я', .rng 'я' 'я'], .cls false [.rng 'Т' 'Т', .rng 'т' 'т', .rng 'ᲄ' 'ᲄ', .rng 'ᲅ' 'ᲅ'], .cls false [.rng 'Д' 'Д', .rng 'д' 'д', .rng 'ᲁ' 'ᲁ'], .cls false [.rng 'Е' 'Е', .rng 'е' 'е'], .cls false [.rng 'С' 'С', .rng 'с' 'с', .rng 'ᲃ' 'ᲃ'], .cls false [.rng 'Я' 'Я', .rng 'я' 'я'], .cls false [.rng 'Т' 'Т', .rng 'т' 'т', .rng 'ᲄ' 'ᲄ', .rng 'ᲅ' 'ᲅ'], .grp 2 (.alts [.eos, .noWord])], [.ref 1, .lit ['5', '0'], .ref 2]),
    (.seqs [.grp 1 (.alts [.bos, .noWord]), .cls false [.rng 'П' 'П', .rng 'п' 'п'], .cls false [.rng 'І' 'І', .rng 'і' 'і'], .cls false [.rng 'В' 'В', .rng 'в' 'в', .rng 'ᲀ' 'ᲀ'], .cls false [.rng 'Г' 'Г', .rng 'г' 'г'], .cls false [.rng 'О' 'О', .rng 'о' 'о', .rng 'ᲂ' 'ᲂ'], .cls false [.rng 'Д' 'Д', .rng 'д' 'д', .rng 'ᲁ' 'ᲁ'], .cls false [.rng 'И' 'И', .rng 'и' 'и'], .cls false [.rng 'Н' 'Н', .rng 'н' 'н'], .cls false [.rng 'И' 'И', .rng 'и' 'и'], .grp 2 (.alts [.eos, .noWord])], [.ref 1, .lit ['3', '0', ' ', 'х', 'в', 'и', 'л', 'и', 'н'], .ref 2]),
    (.seqs [.grp 1 (.alts [.bos, .noWord]), .cls false [.rng 'П' 'П', .rng 'п' 'п'], .cls false [.rng 'І' 'І', .rng 'і' 'і'], .cls false [.rng 'В' 'В', .rng 'в' 'в', .rng 'ᲀ' 'ᲀ'], .lit [' '], .cls false [.rng 'Г' 'Г', .rng 'г' 'г'], .cls false [.rng 'О' 'О', .rng 'о' 'о', .rng 'ᲂ' 'ᲂ'], .cls false [.rng 'Д' 'Д', .rng 'д' 'д', .rng 'ᲁ' 'ᲁ'], .cls false [.rng 'И' 'И', .rng 'и' 'и'], .cls false [.rng 'Н' 'Н', .rng 'н' 'н'], .cls false [.rng 'И' 'И', .rng 'и' 'и'], .grp 2 (.alts [.eos, .noWord])], [.ref 1, .lit ['3', '0', ' ', 'х', 'в', 'и', 'л', 'и', 'н'], .ref 2]),
    (.seqs [.grp 1 (.alts [.bos, .noWord]), .cls false [.rng 'П' 'П', .rng 'п' 'п'], .cls false [.rng 'І' 'І', .rng 'і' 'і'], .cls false [.rng 'В' 'В', .rng 'в' 'в', .rng 'ᲀ' 'ᲀ'], .cls false [.rng 'Р' 'Р', .rng 'р' 'р'], .cls false [.rng 'О' 'О', .rng 'о' 'о', .rng 'ᲂ' 'ᲂ'], .cls false [.rng 'К' 'К', .rng 'к' 'к'], .cls false [.rng 'У' 'У', .rng 'у' 'у'], .grp 2 (.alts [.eos, .noWord])], [.ref 1, .lit ['6', ' ', 'м', 'і', 'с', 'я', 'ц', 'і', 'в'], .ref 2]),
    (.seqs [.grp 1 (.alts [.bos, .noWord]), .cls false [.rng 'П' 'П', .rng 'п' 'п'], .cls false [.rng 'І' 'І', .rng 'і' 'і'], .cls false [.rng 'В' 'В', .rng 'в' 'в', .rng 'ᲀ' 'ᲀ'], .lit [' '], .cls false [.rng 'Р' 'Р', .rng 'р' 'р'], .cls false [.rng 'О' 'О', .rng 'о' 'о', .rng 'ᲂ' 'ᲂ'], .cls false [.rng 'К' 'К', .rng 'к' 'к'], .cls false [.rng 'У' 'У', .rng 'у' 'у'], .grp 2 (.alts [.eos, .noWord])], [.ref 1, .lit ['6', ' ', 'м', 'і', 'с', 'я', 'ц', 'і', 'в'], .ref 2]),
    (.seqs [.grp 1 (.alts [.bos, .noWord]), .cls false [.rng 'П' 'П', .rng 'п' 'п'], .cls false [.rng 'І' 'І', .rng 'і' 'і'], .cls false [.rng 'В' 'В', .rng 'в' 'в', .rng 'ᲀ' 'ᲀ'], .cls false [.rng 'Т' 'Т', .rng 'т' 'т', .rng 'ᲄ' 'ᲄ', .rng 'ᲅ' 'ᲅ'], .cls false [.rng 'О' 'О', .rng 'о' 'о', .rng 'ᲂ' 'ᲂ'], .cls false [.rng 'Р' 'Р', .rng 'р' 'р'], .cls false [.rng 'И' 'И', .rng 'и' 'и'], .lit [' '], .cls false [.rng 'Г' 'Г', .rng 'г' 'г'], .cls false [.rng 'О' 'О', .rng 'о' 'о', .rng 'ᲂ' 'ᲂ'], .cls false [.rng 'Д' 'Д', .rng 'д' 'д', .rng 'ᲁ' 'ᲁ'], .cls false [.rng 'И' 'И', .rng 'и' 'и'], .cls false [.rng 'Н' 'Н', .rng 'н' 'н'], .cls false [.rng 'И' 'И', .rng 'и' 'и'], .grp 2 (.alts [.eos, .noWord])], [.ref 1, .lit ['9', '0', ' ', 'х', 'в', 'и', 'л', 'и', 'н'], .ref 2]),
    (.seqs [.grp 1 (.alts [.bos, .noWord]), .cls false [.rng 'П' 'П', .rng 'п' 'п'], .cls false [.rng 'І' 'І', .rng 'і' 'і'], .cls false [.rng 'В' 'В', .rng 'в' 'в', .rng 'ᲀ' 'ᲀ'], .cls false [.rng 'Т' 'Т', .rng 'т' 'т', .rng 'ᲄ' 'ᲄ', .rng 'ᲅ' 'ᲅ'], .cls false [.rng 'О' 'О', .rng 'о' 'о', .rng 'ᲂ' 'ᲂ'], .cls false [.rng 'Р' 'Р', .rng 'р' 'р'], .cls false [.rng 'А' 'А', .rng 'а' 'а'], .lit [' '], .cls false [.rng 'Р' 'Р', .rng 'р' 'р'], .cls false [.rng 'О' 'О', .rng 'о' 'о', .rng 'ᲂ' 'ᲂ'], .cls false [.rng 'К' 'К', .rng 'к' 'к'], .cls false [.rng 'У' 'У', .rng 'у' 'у'], .grp 2 (.alts [.eos, .noWord])], [.ref 1, .lit ['1', '8', ' ', 'м', 'і', 'с', 'я', 'ц', 'і', 'в'], .ref 2]),
    (.seqs [.grp 1 (.alts [.bos, .noWord]), .bos, .cls false [.rng 'Г' 'Г', .rng 'г' 'г'], .cls false [.rng 'О' 'О', .rng 'о' 'о', .rng 'ᲂ' 'ᲂ'], .cls false [.rng 'Д' 'Д', .rng 'д' 'д', .rng 'ᲁ' 'ᲁ'], .cls false [.rng 'И' 'И', .rng 'и' 'и'], .cls false [.rng 'Н' 'Н', .rng 'н' 'н'], .cls false [.rng 'А' 'А', .rng 'а' 'а'], .grp 2 (.alts [.eos, .noWord])], [.ref 1, .lit ['1', ' ', 'г', 'о', 'д', 'и', 'н', 'а'], .ref 2]),
    (.seqs [.grp 1 (.alts [.bos, .noWord]), .bos, .cls false [.rng 'Г' 'Г', .rng 'г' 'г'], .cls false [.rng 'О' 'О', .rng 'о' 'о', .rng 'ᲂ' 'ᲂ'], .cls false [.rng 'Д' 'Д', .rng 'д' 'д', .rng 'ᲁ' 'ᲁ'], .cls false [.rng 'И' 'И', .rng 'и' 'и'], .cls false [.rng 'Н' 'Н', .rng 'н' 'н'], .cls false [.rng 'У' 'У', .rng 'у' 'у'], .grp 2 (.alts [.eos, .noWord])], [.ref 1, .lit ['1', ' ', 'г', 'о', 'д', 'и', 'н', 'у'], .ref 2]),
    (.seqs [.grp 1 (.alts [.bos, .noWord]), .bos, .cls false [.rng 'Х' 'Х', .rng 'х' 'х'], .cls false [.rng 'В' 'В', .rng 'в' 'в', .rng 'ᲀ' 'ᲀ'], .cls false [.rng 'И' 'И', .rng 'и' 'и'], .cls false [.rng 'Л' 'Л', .rng 'л' 'л'], .cls false [.rng 'И' 'И', .rng 'и' 'и'], .cls false [.rng 'Н' 'Н', .rng 'н' 'н'], .cls false [.rng 'У' 'У', .rng 'у' 'у'], .grp 2 (.alts [.eos, .noWord])], [.ref 1, .lit ['1', ' ', 'х', 'в', 'и', 'л', 'и', 'н', 'у'], .ref 2]),
    (.seqs [.grp 1 (.alts [.bos, .noWord]), .bos, .cls false [.rng 'С' 'С', .rng 'с' 'с', .rng 'ᲃ' 'ᲃ'], .cls false [.rng 'Е' 'Е', .rng 'е' 'е'], .cls false [.rng 'К' 'К', .rng 'к' 'к'], .cls false [.rng 'У' 'У', .rng 'у' 'у'], .cls false [.rng 'Н' 'Н', .rng 'н' 'н'], .cls false [.rng 'Д' 'Д', .rng 'д' 'д', .rng 'ᲁ' 'ᲁ'], .cls false [.rng 'У' 'У', .rng 'у' 'у'], .grp 2 (.alts [.eos, .noWord])], [.ref 1, .lit ['1', ' ', 'с', 'е', 'к', 'у', 'н', 'д', 'у'], .ref 2]),
    (.seqs [.grp 1 (.alts [.bos, .noWord]), .cls false [.rng 'К' 'К', .rng 'к' 'к'], .cls false [.rng 'І' 'І', .rng 'і' 'і'], .cls false [.rng 'Л' 'Л', .rng 'л' 'л'], .cls false [.rng 'Ь' 'Ь', .rng 'ь' 'ь'], .cls false [.rng 'К' 'К', .rng 'к' 'к'], .cls false [.rng 'А' 'А', .rng 'а' 'а'], .lit [' '], .cls false [.rng 'С' 'С', .rng 'с' 'с', .rng 'ᲃ' 'ᲃ'], .cls false [.rng 'Е' 'Е', .rng 'е' 'е'], .cls false [.rng 'К' 'К', .rng 'к' 'к'], .cls false [.rng 'У' 'У', .rng 'у' 'у'], .cls false [.rng 'Н' 'Н', .rng 'н' 'н'], .cls false [.rng 'Д' 'Д', .rng 'д' 'д', .rng 'ᲁ' 'ᲁ'], .grp 2 (.alts [.eos, .noWord])], [.ref 1, .lit ['4', '4', ' ', 'с', 'е', 'к', 'у', 'н', 'д', 'и'], .ref 2]),
    (.seqs [.grp 1 (.alts [.bos, .noWord]), .cls false [.rng 'К' 'К', .rng 'к' 'к'], .cls false [.rng 'І' 'І', .rng 'і' 'і'], .cls false [.rng 'Л' 'Л', .rng 'л' 'л'], .cls false [.rng 'Ь' 'Ь', .rng 'ь' 'ь'], .cls false [.rng 'К' 'К', .rng 'к' 'к'], .cls false [.rng 'А' 'А', .rng 'а' 'а'], .lit [' '], .cls false [.rng 'Х' 'Х', .rng 'х' 'х'], .cls false [.rng 'В' 'В', .rng 'в' 'в', .rng 'ᲀ' 'ᲀ'], .cls false [.rng 'И' 'И', .rng 'и' 'и'], .cls false [.rng 'Л' 'Л', .rng 'л' 'л'], .cls false [.rng 'И' 'И', .rng 'и' 'и'], .cls false [.rng 'Н' 'Н', .rng 'н' 'н'], .grp 2 (.alts [.eos, .noWord])], [.ref 1, .lit ['2', ' ', 'х', 'в', 'и', 'л', 'и', 'н', 'и'], .ref 2]),
    (.seqs [.grp 1 (.alts [.bos, .noWord]), .cls false [.rng 'О' 'О', .rng 'о' 'о', .rng 'ᲂ' 'ᲂ'], .cls false [.rng 'П' 'П', .rng 'п' 'п'], .cls false [.rng 'І' 'І', .rng 'і' 'і'], .cls false [.rng 'В' 'В', .rng 'в' 'в', .rng 'ᲀ' 'ᲀ'], .lit [' '], .cls false [.rng 'Н' 'Н', .rng 'н' 'н'], .cls false [.rng 'А' 'А', .rng 'а' 'а'], .grp 2 (.alts [.eos, .noWord])], [.ref 1, .lit ['3', '0', ' ', 'х', 'в', 'и', 'л', 'и', 'н'], .ref 2]),
    (.seqs [.grp 1 (.alts [.bos, .noWord]), .cls false [.rng 'З' 'З', .rng 'з' 'з'], .cls false [.rng 'А' 'А', .rng 'а' 'а'], .lit [' '], .cls false [.rng 'Ч' 'Ч', .rng 'ч' 'ч'], .cls false [.rng 'В' 'В', .rng 'в' 'в', .rng 'ᲀ' 'ᲀ'], .cls false [.rng 'Е' 'Е', .rng 'е' 'е'], .cls false [.rng 'Р' 'Р', .rng 'р' 'р'], .cls false [.rng 'Т' 'Т', .rng 'т' 'т', .rng 'ᲄ' 'ᲄ', .rng 'ᲅ' 'ᲅ'], .cls false [.rng 'Ь' 'Ь', .rng 'ь' 'ь'], .grp 2 (.alts [.eos, .noWord])], [.ref 1, .lit ['1', '5', ' ', 'х', 'в', 'и', 'л', 'и', 'н'], .ref 2])],
  relativeRegexes :=
   [(.seqs [.cls false [.rng 'Ч' 'Ч', .rng 'ч' 'ч'], .cls false [.rng 'Е' 'Е', .rng 'е' 'е'], .cls false [.rng 'Р' 'Р', .rng 'р' 'р'], .cls false [.rng 'Е' 'Е', .rng 'е' 'е'], .cls false [.rng 'З' 'З', .rng 'з' 'з'], .lit [' '], .grp 1 (.number), .lit [' '], .cls false [.rng 'С' 'С', .rng 'с' 'с', .rng 'ᲃ' 'ᲃ'], .cls false [.rng 'Е' 'Е', .rng 'е' 'е'], .cls false [.rng 'К' 'К', .rng 'к' 'к'], .cls false [.rng 'У' 'У', .rng 'у' 'у'], .cls false [.rng 'Н' 'Н', .rng 'н' 'н'], .cls false [.rng 'Д' 'Д', .rng 'д' 'д', .rng 'ᲁ' 'ᲁ'], .cls false [.rng 'И' 'И', .rng 'и' 'и']], [.lit ['i', 'n', ' '], .ref 1, .lit [' ', 's', 'e', 'c', 'o', 'n', 'd']]),
    (.seqs [.cls false [.rng 'Ч' 'Ч', .rng 'ч' 'ч'], .cls false [.rng 'Е' 'Е', .rng 'е' 'е'], .cls false [.rng 'Р' 'Р', .rng 'р' 'р'], .cls false [.rng 'Е' 'Е', .rng 'е' 'е'], .cls false [.rng 'З' 'З', .rng 'з' 'з'], .lit [' '], .grp 1 (.number), .lit [' '], .cls false [.rng 'С' 'С', .rng 'с' 'с', .rng 'ᲃ' 'ᲃ'], .cls false [.rng 'Е' 'Е', .rng 'е' 'е'], .cls false [.rng 'К' 'К', .rng 'к' 'к'], .cls false [.rng 'У' 'У', .rng 'у' 'у'], .cls false [.rng 'Н' 'Н', .rng 'н' 'н'], .cls false [.rng 'Д' 'Д', .rng 'д' 'д', .rng 'ᲁ' 'ᲁ'], .cls false [.rng 'У' 'У', .rng 'у' 'у']], [.lit ['i', 'n', ' '], .ref 1, .lit [' ', 's', 'e', 'c', 'o', 'n', 'd']]),
    (.seqs [.cls false [.rng 'Ч' 'Ч', .rng 'ч' 'ч'], .cls false [.rng 'Е' 'Е', .rng 'е' 'е'], .cls false [.rng 'Р' 'Р', .rng 'р' 'р'], .cls false [.rng 'Е' 'Е', .rng 'е' 'е'], .cls false [.rng 'З' 'З', .rng 'з' 'з'], .lit [' '], .grp 1 (.number), .lit [' '], .cls false [.rng 'Т' 'Т', .rng 'т' 'т', .rng 'ᲄ' 'ᲄ', .rng 'ᲅ' 'ᲅ'], .cls false [.rng 'И' 'И', .rng 'и' 'и'], .cls false [.rng 'Ж' 'Ж', .rng 'ж' 'ж'], .cls false [.rng 'Д' 'Д', .rng 'д' 'д', .rng 'ᲁ' 'ᲁ'], .cls false [.rng 'Е' 'Е', .rng 'е' 'е'], .cls false [.rng 'Н' 'Н', .rng 'н' 'н'], .cls false [.rng 'Ь' 'Ь', .rng 'ь' 'ь']], [.lit ['i', 'n', ' '], .ref 1, .lit [' ', 'w', 'e', 'e', 'k']]),
    (.seqs [.cls false [.rng 'Ч' 'Ч', .rng 'ч' 'ч'], .cls false [.rng 'Е' 'Е', .rng 'е' 'е'], .cls false [.rng 'Р' 'Р', .rng 'р' 'р'], .cls false [.rng 'Е' 'Е', .rng 'е' 'е'], .cls false [.rng 'З' 'З', .rng 'з' 'з'], .lit [' '], .grp 1 (.number), .lit [' '], .cls false [.rng 'Х' 'Х', .rng 'х' 'х'], .cls false [.rng 'В' 'В', .rng 'в' 'в', .rng 'ᲀ' 'ᲀ'], .cls false [.rng 'И' 'И', .rng 'и' 'и'], .cls false [.rng 'Л' 'Л', .rng 'л' 'л'], .cls false [.rng 'И' 'И', .rng 'и' 'и'], .cls false [.rng 'Н' 'Н', .rng 'н' 'н'], .cls false [.rng 'И' 'И', .rng 'и' 'и']], [.lit ['i', 'n', ' '], .ref 1, .lit [' ', 'm', 'i', 'n', 'u', 't', 'e']]),
    (.seqs [.cls false [.rng 'Ч' 'Ч', .rng 'ч' 'ч'], .cls false [.rng 'Е' 'Е', .rng 'е' 'е'], .cls false [.rng 'Р' 'Р', .rng 'р' 'р'], .cls false [.rng 'Е' 'Е', .rng 'е' 'е'], .cls false [.rng 'З' 'З', .rng 'з' 'з'], .lit [' '], .grp 1 (.number), .lit [' '], .cls false [.rng 'Х' 'Х', .rng 'х' 'х'], .cls false [.rng 'В' 'В', .rng 'в' 'в', .rng 'ᲀ' 'ᲀ'], .cls false [.rng 'И' 'И', .rng 'и' 'и'], .cls false [.rng 'Л' 'Л', .rng 'л' 'л'], .cls false [.rng 'И' 'И', .rng 'и' 'и'], .cls false [.rng 'Н' 'Н', .rng 'н' 'н'], .cls false [.rng 'У' 'У', .rng 'у' 'у']], [.lit ['i', 'n', ' '], .ref 1, .lit [' ', 'm', 'i', 'n', 'u', 't', 'e']]),
    (.seqs [.grp 1 (.number), .lit [' '], .cls false [.rng 'С' 'С', .rng 'с' 'с', .rng 'ᲃ' 'ᲃ'], .cls false [.rng 'Е' 'Е', .rng 'е' 'е'], .cls false [.rng 'К' 'К', .rng 'к' 'к'], .cls false [.rng 'У' 'У', .rng 'у' 'у'], .cls false [.rng 'Н' 'Н', .rng 'н' 'н'], .cls false [.rng 'Д' 'Д', .rng 'д' 'д', .rng 'ᲁ' 'ᲁ'], .cls false [.rng 'А' 'А', .rng 'а' 'а'], .lit [' '], .cls false [.rng 'Т' 'Т', .rng 'т' 'т', .rng 'ᲄ' 'ᲄ', .rng 'ᲅ' 'ᲅ'], .cls false [.rng 'О' 'О', .rng 'о' 'о', .rng 'ᲂ' 'ᲂ'], .cls false [.rng 'М' 'М', .rng 'м' 'м'], .cls false [.rng 'У' 'У', .rng 'у' 'у']], [.ref 1, .lit [' ', 's', 'e', 'c', 'o', 'n', 'd', ' ', 'a', 'g', 'o']]),
    (.seqs [.grp 1 (.number), .lit [' '], .cls false [.rng 'С' 'С', .rng 'с' 'с', .rng 'ᲃ' 'ᲃ'], .cls false [.rng 'Е' 'Е', .rng 'е' 'е'], .cls false [.rng 'К' 'К', .rng 'к' 'к'], .cls false [.rng 'У' 'У', .rng 'у' 'у'], .cls false [.rng 'Н' 'Н', .rng 'н' 'н'], .cls false [.rng 'Д' 'Д', .rng 'д' 'д', .rng 'ᲁ' 'ᲁ'], .cls false [.rng 'И' 'И', .rng 'и' 'и'], .lit [' '], .cls false [.rng 'Т' 'Т', .rng 'т' 'т', .rng 'ᲄ' 'ᲄ', .rng 'ᲅ' 'ᲅ'], .cls false [.rng 'О' 'О', .rng 'о' 'о', .rng 'ᲂ' 'ᲂ'], .cls false [.rng 'М' 'М', .rng 'м' 'м'], .cls false [.rng 'У' 'У', .rng 'у' 'у']], [.ref 1, .lit [' ', 's', 'e', 'c', 'o', 'n', 'd', ' ', 'a', 'g', 'o']]),
    (.seqs [.grp 1 (.number), .lit [' '], .cls false [.rng 'С' 'С', .rng 'с' 'с', .rng 'ᲃ' 'ᲃ'], .cls false [.rng 'Е' 'Е', .rng 'е' 'е'], .cls false [.rng 'К' 'К', .rng 'к' 'к'], .cls false [.rng 'У' 'У', .rng 'у' 'у'], .cls false [.rng 'Н' 'Н', .rng 'н' 'н'], .cls false [.rng 'Д' 'Д', .rng 'д' 'д', .rng 'ᲁ' 'ᲁ'], .cls false [.rng 'У' 'У', .rng 'у' 'у'], .lit [' '], .cls false [.rng 'Т' 'Т', .rng 'т' 'т', .rng 'ᲄ' 'ᲄ', .rng 'ᲅ' 'ᲅ'], .cls false [.rng 'О' 'О', .rng 'о' 'о', .rng 'ᲂ' 'ᲂ'], .cls false [.rng 'М' 'М', .rng 'м' 'м'], .cls false [.rng 'У' 'У', .rng 'у' 'у']], [.ref 1, .lit [' ', 's', 'e', 'c', 'o', 'n', 'd', ' ', 'a', 'g', 'o']]),
    (.seqs [.grp 1 (.number), .lit [' '], .cls false [.rng 'Т' 'Т', .rng 'т' 'т', .rng 'ᲄ' 'ᲄ', .rng 'ᲅ' 'ᲅ'], .cls false [.rng 'И' 'И', .rng 'и' 'и'], .cls false [.rng 'Ж' 'Ж', .rng 'ж' 'ж'], .cls false [.rng 'Д' 'Д', .rng 'д' 'д', .rng 'ᲁ' 'ᲁ'], .cls false [.rng 'Е' 'Е', .rng 'е' 'е'], .cls false [.rng 'Н' 'Н', .rng 'н' 'н'], .cls false [.rng 'Ь' 'Ь', .rng 'ь' 'ь'], .lit [' '], .cls false [.rng 'Т' 'Т', .rng 'т' 'т', .rng 'ᲄ' 'ᲄ', .rng 'ᲅ' 'ᲅ'], .cls false [.rng 'О' 'О', .rng 'о' 'о', .rng 'ᲂ' 'ᲂ'], .cls false [.rng 'М' 'М', .rng 'м' 'м'], .cls false [.rng 'У' 'У', .rng 'у' 'у']], [.ref 1, .lit [' ', 'w', 'e', 'e', 'k', ' ', 'a', 'g', 'o']]),
    (.seqs [.grp 1 (.number), .lit [' '], .cls false [.rng 'Х' 'Х', .rng 'х' 'х'], .cls false [.rng 'В' 'В', .rng 'в' 'в', .rng 'ᲀ' 'ᲀ'], .cls false [.rng 'И' 'И', .rng 'и' 'и'], .cls false [.rng 'Л' 'Л', .rng 'л' 'л'], .cls false [.rng 'И' 'И', .rng 'и' 'и'], .cls false [.rng 'Н' 'Н', .rng 'н' 'н'], .cls false [.rng 'А' 'А', .rng 'а' 'а'], .lit [' '], .cls false [.rng 'Т' 'Т', .rng 'т' 'т', .rng 'ᲄ' 'ᲄ', .rng 'ᲅ' 'ᲅ'], .cls false [.rng 'О' 'О', .rng 'о' 'о', .rng 'ᲂ' 'ᲂ'], .cls false [.rng 'М' 'М', .rng 'м' 'м'], .cls false [.rng 'У' 'У', .rng 'у' 'у']], [.ref 1, .lit [' ', 'm', 'i', 'n', 'u', 't', 'e', ' ', 'a', 'g', 'o']]),
    (.seqs [.grp 1 (.number), .lit [' '], .cls false [.rng 'Х' 'Х', .rng 'х' 'х'], .cls false [.rng 'В' 'В', .rng 'в' 'в', .rng 'ᲀ' 'ᲀ'], .cls false [.rng 'И' 'И', .rng 'и' 'и'], .cls false [.rng 'Л' 'Л', .rng 'л' 'л'], .cls false [.rng 'И' 'И', .rng 'и' 'и'], .cls false [.rng 'Н' 'Н', .rng 'н' 'н'], .cls false [.rng 'И' 'И', .rng 'и' 'и'], .lit [' '], .cls false [.rng 'Т' 'Т', .rng 'т' 'т', .rng 'ᲄ' 'ᲄ', .rng 'ᲅ' 'ᲅ'], .cls false [.rng 'О' 'О', .rng 'о' 'о', .rng 'ᲂ' 'ᲂ'], .cls false [.rng 'М' 'М', .rng 'м' 'м'], .cls false [.rng 'У' 'У', .rng 'у' 'у']], [.ref 1, .lit [' ', 'm', 'i', 'n', 'u', 't', 'e', ' ', 'a', 'g', 'o']]),
    (.seqs [.grp 1 (.number), .lit [' '], .cls false [.rng 'Х' 'Х', .rng 'х' 'х'], .cls false [.rng 'В' 'В', .rng 'в' 'в', .rng 'ᲀ' 'ᲀ'], .cls false [.rng 'И' 'И', .rng 'и' 'и'], .cls false [.rng 'Л' 'Л', .rng 'л' 'л'], .cls false [.rng 'И' 'И', .rng 'и' 'и'], .cls false [.rng 'Н' 'Н', .rng 'н' 'н'], .cls false [.rng 'У' 'У', .rng 'у' 'у'], .lit [' '], .cls false [.rng 'Т' 'Т', .rng 'т' 'т', .rng 'ᲄ' 'ᲄ', .rng 'ᲅ' 'ᲅ'], .cls false [.rng 'О' 'О', .rng 'о' 'о', .rng 'ᲂ' 'ᲂ'], .cls false [.rng 'М' 'М', .rng 'м' 'м'], .cls false [.rng 'У' 'У', .rng 'у' 'у']], [.ref 1, .lit [' ', 'm', 'i', 'n', 'u', 't', 'e', ' ', 'a', 'g', 'o']]),
    (.seqs [.cls false [.rng 'Ч' 'Ч', .rng 'ч' 'ч'], .cls false [.rng 'Е' 'Е', .rng 'е' 'е'], .cls false [.rng 'Р' 'Р', .rng 'р' 'р'], .cls false [.rng 'Е' 'Е', .rng 'е' 'е'], .cls false [.rng 'З' 'З', .rng 'з' 'з'], .lit [' '], .grp 1 (.number), .lit [' '], .cls false [.rng 'Г' 'Г', .rng 'г' 'г'], .cls false [.rng 'О' 'О', .rng 'о' 'о', .rng 'ᲂ' 'ᲂ'], .cls false [.rng 'Д' 'Д', .rng 'д' 'д', .rng 'ᲁ' 'ᲁ'], .cls false [.rng 'И' 'И', .rng 'и' 'и'], .cls false [.rng 'Н' 'Н', .rng 'н' 'н'], .cls false [.rng 'И' 'И', .rng 'и' 'и']], [.lit ['i', 'n', ' '], .ref 1, .lit [' ', 'h', 'o', 'u', 'r']]),
    (.seqs [.cls false [.rng 'Ч' 'Ч', .rng 'ч' 'ч'], .cls false [.rng 'Е' 'Е', .rng 'е' 'е'], .cls false [.rng 'Р' 'Р', .rng 'р' 'р'], .cls false [.rng 'Е' 'Е', .rng 'е' 'е'], .cls false [.rng 'З' 'З', .rng 'з' 'з'], .lit [' '], .grp 1 (.number), .lit [' '], .cls false [.rng 'Г' 'Г', .rng 'г' 'г'], .cls false [.rng 'О' 'О', .rng 'о' 'о', .rng 'ᲂ' 'ᲂ'], .cls false [.rng 'Д' 'Д', .rng 'д' 'д', .rng 'ᲁ' 'ᲁ'], .cls false [.rng 'И' 'И', .rng 'и' 'и'], .cls false [.rng 'Н' 'Н', .rng 'н' 'н'], .cls false [.rng 'У' 'У', .rng 'у' 'у']], [.lit ['i', 'n', ' '], .ref 1, .lit [' ', 'h', 'o', 'u', 'r']]),
    (.seqs [.cls false [.rng 'Ч' 'Ч', .rng 'ч' 'ч'], .cls false [.rng 'Е' 'Е', .rng 'е' 'е'], .cls false [.rng 'Р' 'Р', .rng 'р' 'р'], .cls false [.rng 'Е' 'Е', .rng 'е' 'е'], .cls false [.rng 'З' 'З', .rng 'з' 'з'], .lit [' '], .grp 1 (.number), .lit [' '], .cls false [.rng 'М' 'М', .rng 'м' 'м'], .cls false [.rng 'І' 'І', .rng 'і' 'і'], .cls false [.rng 'С' 'С', .rng 'с' 'с', .rng 'ᲃ' 'ᲃ'], .cls false [.rng 'Я' 'Я', .rng 'я' 'я'], .cls false [.rng 'Ц' 'Ц', .rng 'ц' 'ц'], .cls false [.rng 'Ь' 'Ь', .rng 'ь' 'ь']], [.lit ['i', 'n', ' '], .ref 1, .lit [' ', 'm', 'o', 'n', 't', 'h']]),
    (.seqs [.cls false [.rng 'Ч' 'Ч', .rng 'ч' 'ч'], .cls false [.rng 'Е' 'Е', .rng 'е' 'е'], .cls false [.rng 'Р' 'Р', .rng 'р' 'р'], .cls false [.rng 'Е' 'Е', .rng 'е' 'е'], .cls false [.rng 'З' 'З', .rng 'з' 'з'], .lit [' '], .grp 1 (.number), .lit [' '], .cls false [.rng 'М' 'М', .rng 'м' 'м'], .cls false [.rng 'І' 'І', .rng 'і' 'і'], .cls false [.rng 'С' 'С', .rng 'с' 'с', .rng 'ᲃ' 'ᲃ'], .cls false [.rng 'Я' 'Я', .rng 'я' 'я'], .cls false [.rng 'Ц' 'Ц', .rng 'ц' 'ц'], .cls false [.rng 'Я' 'Я', .rng 'я' 'я']], [.lit ['i', 'n', ' '], .ref 1, .lit [' ', 'm', 'o', 'n', 't', 'h']]),
    (.seqs [.grp 1 (.number), .lit [' '], .cls false [.rng 'Г' 'Г', .rng 'г' 'г'], .cls false [.rng 'О' 'О', .rng 'о' 'о', .rng 'ᲂ' 'ᲂ'], .cls false [.rng 'Д' 'Д', .rng 'д' 'д', .rng 'ᲁ' 'ᲁ'], .cls false [.rng 'И' 'И', .rng 'и' 'и'], .cls false [.rng 'Н' 'Н', .rng 'н' 'н'], .cls false [.rng 'А' 'А', .rng 'а' 'а'], .lit [' '], .cls false [.rng 'Т' 'Т', .rng 'т' 'т', .rng 'ᲄ' 'ᲄ', .rng 'ᲅ' 'ᲅ'], .cls false [.rng 'О' 'О', .rng 'о' 'о', .rng 'ᲂ' 'ᲂ'], .cls false [.rng 'М' 'М', .rng 'м' 'м'], .cls false [.rng 'У' 'У', .rng 'у' 'у']], [.ref 1, .lit [' ', 'h', 'o', 'u', 'r', ' ', 'a', 'g', 'o']]),
    (.seqs [.grp 1 (.number), .lit [' '], .cls false [.rng 'Г' 'Г', .rng 'г' 'г'], .cls false [.rng 'О' 'О', .rng 'о' 'о', .rng 'ᲂ' 'ᲂ'], .cls false [.rng 'Д' 'Д', .rng 'д' 'д', .rng 'ᲁ' 'ᲁ'], .cls false [.rng 'И' 'И', .rng 'и' 'и'], .cls false [.rng 'Н' 'Н', .rng 'н' 'н'], .cls false [.rng 'И' 'И', .rng 'и' 'и'], .lit [' '], .cls false [.rng 'Т' 'Т', .rng 'т' 'т', .rng 'ᲄ' 'ᲄ', .rng 'ᲅ' 'ᲅ'], .cls false [.rng 'О' 'О', .rng 'о' 'о', .rng 'ᲂ' 'ᲂ'], .cls false [.rng 'М' 'М', .rng 'м' 'м'], .cls false [.rng 'У' 'У', .rng 'у' 'у']], [.ref 1, .lit [' ', 'h', 'o', 'u', 'r', ' ', 'a', 'g', 'o']]),
    (.seqs [.grp 1 (.number), .lit [' '], .cls false [.rng 'Г' 'Г', .rng 'г' 'г'], .cls false [.rng 'О' 'О', .rng 'о' 'о', .rng 'ᲂ' 'ᲂ'], .cls false [.rng 'Д' 'Д', .rng 'д' 'д', .rng 'ᲁ' 'ᲁ'], .cls false [.rng 'И' 'И', .rng 'и' 'и'], .cls false [.rng 'Н' 'Н', .rng 'н' 'н'], .cls false [.rng 'У' 'У', .rng 'у' 'у'], .lit [' '], .cls false [.rng 'Т' 'Т', .rng 'т' 'т', .rng 'ᲄ' 'ᲄ', .rng 'ᲅ' 'ᲅ'], .cls false [.rng 'О' 'О', .rng 'о' 'о', .rng 'ᲂ' 'ᲂ'], .cls false [.rng 'М' 'М', .rng 'м' 'м'], .cls false [.rng 'У' 'У', .rng 'у' 'у']], [.ref 1, .lit [' ', 'h', 'o', 'u', 'r', ' ', 'a', 'g', 'o']]),
    (.seqs [.grp 1 (.number), .lit [' '], .cls false [.rng 'М' 'М', .rng 'м' 'м'], .cls false [.rng 'І' 'І', .rng 'і' 'і'], .cls false [.rng 'С' 'С', .rng 'с' 'с', .rng 'ᲃ' 'ᲃ'], .cls false [.rng 'Я' 'Я', .rng 'я' 'я'], .cls false [.rng 'Ц' 'Ц', .rng 'ц' 'ц'], .cls false [.rng 'Ь' 'Ь', .rng 'ь' 'ь'], .lit [' '], .cls false [.rng 'Т' 'Т', .rng 'т' 'т', .rng 'ᲄ' 'ᲄ', .rng 'ᲅ' 'ᲅ'], .cls false [.rng 'О' 'О', .rng 'о' 'о', .rng 'ᲂ' 'ᲂ'], .cls false [.rng 'М' 'М', .rng 'м' 'м'], .cls false [.rng 'У' 'У', .rng 'у' 'у']], [.ref 1, .lit [' ', 'm', 'o', 'n', 't', 'h', ' ', 'a', 'g', 'o']]),
    (.seqs [.grp 1 (.number), .lit [' '], .cls false [.rng 'М' 'М', .rng 'м' 'м'], .cls false [.rng 'І' 'І', .rng 'і' 'і'], .cls false [.rng 'С' 'С', .rng 'с' 'с', .rng 'ᲃ' 'ᲃ'], .cls false [.rng 'Я' 'Я', .rng 'я' 'я'], .cls false [.rng 'Ц' 'Ц', .rng 'ц' 'ц'], .cls false [.rng 'Я' 'Я', .rng 'я' 'я'], .lit [' '], .cls false [.rng 'Т' 'Т', .rng 'т' 'т', .rng 'ᲄ' 'ᲄ', .rng 'ᲅ' 'ᲅ'], .cls false [.rng 'О' 'О', .rng 'о' 'о', .rng 'ᲂ' 'ᲂ'], .cls false [.rng 'М' 'М', .rng 'м' 'м'], .cls false [.rng 'У' 'У', .rng 'у' 'у']], [.ref 1, .lit [' ', 'm', 'o', 'n', 't', 'h', ' ', 'a', 'g', 'o']]),
    (.seqs [.cls false [.rng 'Ч' 'Ч', .rng 'ч' 'ч'], .cls false [.rng 'Е' 'Е', .rng 'е' 'е'], .cls false [.rng 'Р' 'Р', .rng 'р' 'р'], .cls false [.rng 'Е' 'Е', .rng 'е' 'е'], .cls false [.rng 'З' 'З', .rng 'з' 'з'], .lit [' '], .grp 1 (.number), .lit [' '], .cls false [.rng 'Т' 'Т', .rng 'т' 'т', .rng 'ᲄ' 'ᲄ', .rng 'ᲅ' 'ᲅ'], .cls false [.rng 'И' 'И', .rng 'и' 'и'], .cls false [.rng 'Ж' 'Ж', .rng 'ж' 'ж'], .cls false [.rng 'Н' 'Н', .rng 'н' 'н'], .cls false [.rng 'Я' 'Я', .rng 'я' 'я']], [.lit ['i', 'n', ' '], .ref 1, .lit [' ', 'w', 'e', 'e', 'k']]),
    (.seqs [.grp 1 (.number), .lit [' '], .cls false [.rng 'Т' 'Т', .rng 'т' 'т', .rng 'ᲄ' 'ᲄ', .rng 'ᲅ' 'ᲅ'], .cls false [.rng 'И' 'И', .rng 'и' 'и'], .cls false [.rng 'Ж' 'Ж', .rng 'ж' 'ж'], .cls false [.rng 'Н' 'Н', .rng 'н' 'н'], .cls false [.rng 'Я' 'Я', .rng 'я' 'я'], .lit [' '], .cls false [.rng 'Т' 'Т', .rng 'т' 'т', .rng 'ᲄ' 'ᲄ', .rng 'ᲅ' 'ᲅ'], .cls false [.rng 'О' 'О', .rng 'о' 'о', .rng 'ᲂ' 'ᲂ'], .cls false [.rng 'М' 'М', .rng 'м' 'м'], .cls false [.rng 'У' 'У', .rng 'у' 'у']], [.ref 1, .lit [' ', 'w', 'e', 'e', 'k', ' ', 'a', 'g', 'o']]),
    (.seqs [.cls false [.rng 'Ч' 'Ч', .rng 'ч' 'ч'], .cls false [.rng 'Е' 'Е', .rng 'е' 'е'], .cls false [.rng 'Р' 'Р', .rng 'р' 'р'], .cls false [.rng 'Е' 'Е', .rng 'е' 'е'], .cls false [.rng 'З' 'З', .rng 'з' 'з'], .lit [' '], .grp 1 (.number), .lit [' '], .cls false [.rng 'Д' 'Д', .rng 'д' 'д', .rng 'ᲁ' 'ᲁ'], .cls false [.rng 'Е' 'Е', .rng 'е' 'е'], .cls false [.rng 'Н' 'Н', .rng 'н' 'н'], .cls false [.rng 'Ь' 'Ь', .rng 'ь' 'ь']], [.lit ['i', 'n', ' '], .ref 1, .lit [' ', 'd', 'a', 'y']]),
    (.seqs [.cls false [.rng 'Ч' 'Ч', .rng 'ч' 'ч'], .cls false [.rng 'Е' 'Е', .rng 'е' 'е'], .cls false [.rng 'Р' 'Р', .rng 'р' 'р'], .cls false [.rng 'Е' 'Е', .rng 'е' 'е'], .cls false [.rng 'З' 'З', .rng 'з' 'з'], .lit [' '], .grp 1 (.number), .lit [' '], .cls false [.rng 'Р' 'Р', .rng 'р' 'р'], .cls false [.rng 'О' 'О', .rng 'о' 'о', .rng 'ᲂ' 'ᲂ'], .cls false [.rng 'К' 'К', .rng 'к' 'к'], .cls false [.rng 'У' 'У', .rng 'у' 'у']], [.lit ['i', 'n', ' '], .ref 1, .lit [' ', 'y', 'e', 'a', 'r']]),
    (.seqs [.grp 1 (.number), .lit [' '], .cls false [.rng 'Д' 'Д', .rng 'д' 'д', .rng 'ᲁ' 'ᲁ'], .cls false [.rng 'Е' 'Е', .rng 'е' 'е'], .cls false [.rng 'Н' 'Н', .rng 'н' 'н'], .cls false [.rng 'Ь' 'Ь', .rng 'ь' 'ь'], .lit [' '], .cls false [.rng 'Т' 'Т', .rng 'т' 'т', .rng 'ᲄ' 'ᲄ', .rng 'ᲅ' 'ᲅ'], .cls false [.rng 'О' 'О', .rng 'о' 'о', .rng 'ᲂ' 'ᲂ'], .cls false [.rng 'М' 'М', .rng 'м' 'м'], .cls false [.rng 'У' 'У', .rng 'у' 'у']], [.ref 1, .lit [' ', 'd', 'a', 'y', ' ', 'a', 'g', 'o']]),
    (.seqs [.grp 1 (.number), .lit [' '], .cls false [.rng 'Р' 'Р', .rng 'р' 'р'], .cls false [.rng 'О' 'О', .rng 'о' 'о', .rng 'ᲂ' 'ᲂ'], .cls false [.rng 'К' 'К', .rng 'к' 'к'], .cls false [.rng 'У' 'У', .rng 'у' 'у'], .lit [' '], .cls false [.rng 'Т' 'Т', .rng 'т' 'т', .rng 'ᲄ' 'ᲄ', .rng 'ᲅ' 'ᲅ'], .cls false [.rng 'О' 'О', .rng 'о' 'о', .rng 'ᲂ' 'ᲂ'], .cls false [.rng 'М' 'М', .rng 'м' 'м'], .cls false [.rng 'У' 'У', .rng 'у' 'у']], [.ref 1, .lit [' ', 'y', 'e', 'a', 'r', ' ', 'a', 'g', 'o']]),
    (.seqs [.cls false [.rng 'Ч' 'Ч', .rng 'ч' 'ч'], .cls false [.rng 'Е' 'Е', .rng 'е' 'е'], .cls false [.rng 'Р' 'Р', .rng 'р' 'р'], .cls false [.rng 'Е' 'Е', .rng 'е' 'е'], .cls false [.rng 'З' 'З', .rng 'з' 'з'], .lit [' '], .grp 1 (.number), .lit [' '], .cls false [.rng 'Г' 'Г', .rng 'г' 'г'], .cls false [.rng 'О' 'О', .rng 'о' 'о', .rng 'ᲂ' 'ᲂ'], .cls false [.rng 'Д' 'Д', .rng 'д' 'д', .rng 'ᲁ' 'ᲁ']], [.lit ['i', 'n', ' '], .ref 1, .lit [' ', 'h', 'o', 'u', 'r']]),
    (.seqs [.cls false [.rng 'Ч' 'Ч', .rng 'ч' 'ч'], .cls false [.rng 'Е' 'Е', .rng 'е' 'е'], .cls false [.rng 'Р' 'Р', .rng 'р' 'р'], .cls false [.rng 'Е' 'Е', .rng 'е' 'е'], .cls false [.rng 'З' 'З', .rng 'з' 'з'], .lit [' '], .grp 1 (.number), .lit [' '], .cls false [.rng 'Д' 'Д', .rng 'д' 'д', .rng 'ᲁ' 'ᲁ'], .cls false [.rng 'Н' 'Н', .rng 'н' 'н'], .cls false [.rng 'Я' 'Я', .rng 'я' 'я']], [.lit ['i', 'n', ' '], .ref 1, .lit [' ', 'd', 'a', 'y']]),
    (.seqs [.cls false [.rng 'Ч' 'Ч', .rng 'ч' 'ч'], .cls false [.rng 'Е' 'Е', .rng 'е' 'е'], .cls false [.rng 'Р' 'Р', .rng 'р' 'р'], .cls false [.rng 'Е' 'Е', .rng 'е' 'е'], .cls false [.rng 'З' 'З', .rng 'з' 'з'], .lit [' '], .grp 1 (.number), .lit [' '], .cls false [.rng 'М' 'М', .rng 'м' 'м'], .cls false [.rng 'І' 'І', .rng 'і' 'і'], .cls false [.rng 'С' 'С', .rng 'с' 'с', .rng 'ᲃ' 'ᲃ']], [.lit ['i', 'n', ' '], .ref 1, .lit [' ', 'm', 'o', 'n', 't', 'h']]),
    (.seqs [.cls false [.rng 'Ч' 'Ч', .rng 'ч' 'ч'], .cls false [.rng 'Е' 'Е', .rng 'е' 'е'], .cls false [.rng 'Р' 'Р', .rng 'р' 'р'], .cls false [.rng 'Е' 'Е', .rng 'е' 'е'], .cls false [.rng 'З' 'З', .rng 'з' 'з'], .lit [' '], .grp 1 (.number), .lit [' '], .cls false [.rng 'Р' 'Р', .rng 'р' 'р'], .cls false [.rng 'І' 'І', .rng 'і' 'і'], .cls false [.rng 'К' 'К', .rng 'к' 'к']], [.lit ['i', 'n', ' '], .ref 1, .lit [' ', 'y', 'e', 'a', 'r']]),
    (.seqs [.cls false [.rng 'Ч' 'Ч', .rng 'ч' 'ч'], .cls false [.rng 'Е' 'Е', .rng 'е' 'е'], .cls false [.rng 'Р' 'Р', .rng 'р' 'р'], .cls false [.rng 'Е' 'Е', .rng 'е' 'е'], .cls false [.rng 'З' 'З', .rng 'з' 'з'], .lit [' '], .grp 1 (.number), .lit [' '], .cls false [.rng 'Т' 'Т', .rng 'т' 'т', .rng 'ᲄ' 'ᲄ', .rng 'ᲅ' 'ᲅ'], .cls false [.rng 'И' 'И', .rng 'и' 'и'], .cls false [.rng 'Ж' 'Ж', .rng 'ж' 'ж']], [.lit ['i', 'n', ' '], .ref 1, .lit [' ', 'w', 'e', 'e', 'k']]),
    (.seqs [.grp 1 (.number), .lit [' '], .cls false [.rng 'Г' 'Г', .rng 'г' 'г'], .cls false [.rng 'О' 'О', .rng 'о' 'о', .rng 'ᲂ' 'ᲂ'], .cls false [.rng 'Д' 'Д', .rng 'д' 'д', .rng 'ᲁ' 'ᲁ'], .lit [' '], .cls false [.rng 'Т' 'Т', .rng 'т' 'т', .rng 'ᲄ' 'ᲄ', .rng 'ᲅ' 'ᲅ'], .cls false [.rng 'О' 'О', .rng 'о' 'о', .rng 'ᲂ' 'ᲂ'], .cls false [.rng 'М' 'М', .rng 'м' 'м'], .cls false [.rng 'У' 'У', .rng 'у' 'у']], [.ref 1, .lit [' ', 'h', 'o', 'u', 'r', ' ', 'a', 'g', 'o']]),
    (.seqs [.grp 1 (.number), .lit [' '], .cls false [.rng 'Д' 'Д', .rng 'д' 'д', .rng 'ᲁ' 'ᲁ'], .cls false [.rng 'Н' 'Н', .rng 'н' 'н'], .cls false [.rng 'Я' 'Я', .rng 'я' 'я'], .lit [' '], .cls false [.rng 'Т' 'Т', .rng 'т' 'т', .rng 'ᲄ' 'ᲄ', .rng 'ᲅ' 'ᲅ'], .cls false [.rng 'О' 'О', .rng 'о' 'о', .rng 'ᲂ' 'ᲂ'], .cls false [.rng 'М' 'М', .rng 'м' 'м'], .cls false [.rng 'У' 'У', .rng 'у' 'у']], [.ref 1, .lit [' ', 'd', 'a', 'y', ' ', 'a', 'g', 'o']]),
    (.seqs [.grp 1 (.number), .lit [' '], .cls false [.rng 'М' 'М', .rng 'м' 'м'], .cls false [.rng 'І' 'І', .rng 'і' 'і'], .cls false [.rng 'С' 'С', .rng 'с' 'с', .rng 'ᲃ' 'ᲃ'], .lit [' '], .cls false [.rng 'Т' 'Т', .rng 'т' 'т', .rng 'ᲄ' 'ᲄ', .rng 'ᲅ' 'ᲅ'], .cls false [.rng 'О' 'О', .rng 'о' 'о', .rng 'ᲂ' 'ᲂ'], .cls false [.rng 'М' 'М', .rng 'м' 'м'], .cls false [.rng 'У' 'У', .rng 'у' 'у']], [.ref 1, .lit [' ', 'm', 'o', 'n', 't', 'h', ' ', 'a', 'g', 'o']]),
    (.seqs [.grp 1 (.number), .lit [' '], .cls false [.rng 'Р' 'Р', .rng 'р' 'р'], .cls false [.rng 'І' 'І', .rng 'і' 'і'], .cls false [.rng 'К' 'К', .rng 'к' 'к'], .lit [' '], .cls false [.rng 'Т' 'Т', .rng 'т' 'т', .rng 'ᲄ' 'ᲄ', .rng 'ᲅ' 'ᲅ'], .cls false [.rng 'О' 'О', .rng 'о' 'о', .rng 'ᲂ' 'ᲂ'], .cls false [.rng 'М' 'М', .rng 'м' 'м'], .cls false [.rng 'У' 'У', .rng 'у' 'у']], [.ref 1, .lit [' ', 'y', 'e', 'a', 'r', ' ', 'a', 'g', 'o']]),
    (.seqs [.grp 1 (.number), .lit [' '], .cls false [.rng 'Т' 'Т', .rng 'т' 'т', .rng 'ᲄ' 'ᲄ', .rng 'ᲅ' 'ᲅ'], .cls false [.rng 'И' 'И', .rng 'и' 'и'], .cls false [.rng 'Ж' 'Ж', .rng 'ж' 'ж'], .lit [' '], .cls false [.rng 'Т' 'Т', .rng 'т' 'т', .rng 'ᲄ' 'ᲄ', .rng 'ᲅ' 'ᲅ'], .cls false [.rng 'О' 'О', .rng 'о' 'о', .rng 'ᲂ' 'ᲂ'], .cls false [.rng 'М' 'М', .rng 'м' 'м'], .cls false [.rng 'У' 'У', .rng 'у' 'у']], [.ref 1, .lit [' ', 'w', 'e', 'e', 'k', ' ', 'a', 'g', 'o']]),
    (.seqs [.cls false [.rng 'Ч' 'Ч', .rng 'ч' 'ч'], .cls false [.rng 'Е' 'Е', .rng 'е' 'е'], .cls false [.rng 'Р' 'Р', .rng 'р' 'р'], .cls false [.rng 'Е' 'Е', .rng 'е' 'е'], .cls false [.rng 'З' 'З', .rng 'з' 'з'], .lit [' '], .grp 1 (.number), .lit [' '], .cls false [.rng 'Д' 'Д', .rng 'д' 'д', .rng 'ᲁ' 'ᲁ'], .cls false [.rng 'Н' 'Н', .rng 'н' 'н']], [.lit ['i', 'n', ' '], .ref 1, .lit [' ', 'd', 'a', 'y']]),
    (.seqs [.cls false [.rng 'Ч' 'Ч', .rng 'ч' 'ч'], .cls false [.rng 'Е' 'Е', .rng 'е' 'е'], .cls false [.rng 'Р' 'Р', .rng 'р' 'р'], .cls false [.rng 'Е' 'Е', .rng 'е' 'е'], .cls false [.rng 'З' 'З', .rng 'з' 'з'], .lit [' '], .grp 1 (.number), .lit [' '], .cls false [.rng 'Х' 'Х', .rng 'х' 'х'], .cls false [.rng 'В' 'В', .rng 'в' 'в', .rng 'ᲀ' 'ᲀ']], [.lit ['i', 'n', ' '], .ref 1, .lit [' ', 'm', 'i', 'n', 'u', 't', 'e']]),
    (.seqs [.grp 1 (.number), .lit [' '], .cls false [.rng 'Д' 'Д', .rng 'д' 'д', .rng 'ᲁ' 'ᲁ'], .cls false [.rng 'Н' 'Н', .rng 'н' 'н'], .lit [' '], .cls false [.rng 'Т' 'Т', .rng 'т' 'т', .rng 'ᲄ' 'ᲄ', .rng 'ᲅ' 'ᲅ'], .cls false [.rng 'О' 'О', .rng 'о' 'о', .rng 'ᲂ' 'ᲂ'], .cls false [.rng 'М' 'М', .rng 'м' 'м'], .cls false [.rng 'У' 'У', .rng 'у' 'у']], [.ref 1, .lit [' ', 'd', 'a', 'y', ' ', 'a', 'g', 'o']]),
    (.seqs [.grp 1 (.number), .lit [' '], .cls false [.rng 'Х' 'Х', .rng 'х' 'х'], .cls false [.rng 'В' 'В', .rng 'в' 'в', .rng 'ᲀ' 'ᲀ'], .lit [' '], .cls false [.rng 'Т' 'Т', .rng 'т' 'т', .rng 'ᲄ' 'ᲄ', .rng 'ᲅ' 'ᲅ'], .cls false [.rng 'О' 'О', .rng 'о' 'о', .rng 'ᲂ' 'ᲂ'], .cls false [.rng 'М' 'М', .rng 'м' 'м'], .cls false [.rng 'У' 'У', .rng 'у' 'у']], [.ref 1, .lit [' ', 'm', 'i', 'n', 'u', 't', 'e', ' ', 'a', 'g', 'o']]),
    (.seqs [.cls false [.rng 'Ч' 'Ч', .rng 'ч' 'ч'], .cls false [.rng 'Е' 'Е', .rng 'е' 'е'], .cls false [.rng 'Р' 'Р', .rng 'р' 'р'], .cls false [.rng 'Е' 'Е', .rng 'е' 'е'], .cls false [.rng 'З' 'З', .rng 'з' 'з'], .lit [' '], .grp 1 (.number), .lit [' '], .cls false [.rng 'Р' 'Р', .rng 'р' 'р']], [.lit ['i', 'n', ' '], .ref 1, .lit [' ', 'y', 'e', 'a', 'r']]),
    (.seqs [.cls false [.rng 'Ч' 'Ч', .rng 'ч' 'ч'], .cls false [.rng 'Е' 'Е', .rng 'е' 'е'], .cls false [.rng 'Р' 'Р', .rng 'р' 'р'], .cls false [.rng 'Е' 'Е', .rng 'е' 'е'], .cls false [.rng 'З' 'З', .rng 'з' 'з'], .lit [' '], .grp 1 (.number), .lit [' '], .cls false [.rng 'С' 'С', .rng 'с' 'с', .rng 'ᲃ' 'ᲃ']], [.lit ['i', 'n', ' '], .ref 1, .lit [' ', 's', 'e', 'c', 'o', 'n', 'd']]),
    (.seqs [.grp 1 (.number), .lit [' '], .cls false [.rng 'Д' 'Д', .rng 'д' 'д', .rng 'ᲁ' 'ᲁ'], .lit [' '], .cls false [.rng 'Т' 'Т', .rng 'т' 'т', .rng 'ᲄ' 'ᲄ', .rng 'ᲅ' 'ᲅ'], .cls false [.rng 'О' 'О', .rng 'о' 'о', .rng 'ᲂ' 'ᲂ'], .cls false [.rng 'М' 'М', .rng 'м' 'м'], .cls false [.rng 'У' 'У', .rng 'у' 'у']], [.ref 1, .lit [' ', 'd', 'a', 'y', ' ', 'a', 'g', 'o']]),
    (.seqs [.grp 1 (.number), .lit [' '], .cls false [.rng 'Р' 'Р', .rng 'р' 'р'], .lit [' '], .cls false [.rng 'Т' 'Т', .rng 'т' 'т', .rng 'ᲄ' 'ᲄ', .rng 'ᲅ' 'ᲅ'], .cls false [.rng 'О' 'О', .rng 'о' 'о', .rng 'ᲂ' 'ᲂ'], .cls false [.rng 'М' 'М', .rng 'м' 'м'], .cls false [.rng 'У' 'У', .rng 'у' 'у']], [.ref 1, .lit [' ', 'y', 'e', 'a', 'r', ' ', 'a', 'g', 'o']]),
    (.seqs [.grp 1 (.number), .lit [' '], .cls false [.rng 'С' 'С', .rng 'с' 'с', .rng 'ᲃ' 'ᲃ'], .lit [' '], .cls false [.rng 'Т' 'Т', .rng 'т' 'т', .rng 'ᲄ' 'ᲄ', .rng 'ᲅ' 'ᲅ'], .cls false [.rng 'О' 'О', .rng 'о' 'о', .rng 'ᲂ' 'ᲂ'], .cls false [.rng 'М' 'М', .rng 'м' 'м'], .cls false [.rng 'У' 'У', .rng 'у' 'у']], [.ref 1, .lit [' ', 's', 'e', 'c', 'o', 'n', 'd', ' ', 'a', 'g', 'o']]),
    (.seqs [.cls false [.rng 'З' 'З', .rng 'з' 'з'], .cls false [.rng 'А' 'А', .rng 'а' 'а'], .lit [' '], .grp 1 (.number), .lit [' '], .cls false [.rng 'Г' 'Г', .rng 'г' 'г'], .cls false [.rng 'О' 'О', .rng 'о' 'о', .rng 'ᲂ' 'ᲂ'], .cls false [.rng 'Д' 'Д', .rng 'д' 'д', .rng 'ᲁ' 'ᲁ']], [.lit ['i', 'n', ' '], .ref 1, .lit [' ', 'h', 'o', 'u', 'r']]),
    (.seqs [.cls false [.rng 'З' 'З', .rng 'з' 'з'], .cls false [.rng 'А' 'А', .rng 'а' 'а'], .lit [' '], .grp 1 (.number), .lit [' '], .cls false [.rng 'М' 'М', .rng 'м' 'м'], .cls false [.rng 'І' 'І', .rng 'і' 'і'], .cls false [.rng 'С' 'С', .rng 'с' 'с', .rng 'ᲃ' 'ᲃ']], [.lit ['i', 'n', ' '], .ref 1, .lit [' ', 'm', 'o', 'n', 't', 'h']]),
    (.seqs [.cls false [.rng 'З' 'З', .rng 'з' 'з'], .cls false [.rng 'А' 'А', .rng 'а' 'а'], .lit [' '], .grp 1 (.number), .lit [' '], .cls false [.rng 'Т' 'Т', .rng 'т' 'т', .rng 'ᲄ' 'ᲄ', .rng 'ᲅ' 'ᲅ'], .cls false [.rng 'И' 'И', .rng 'и' 'и'], .cls false [.rng 'Ж' 'Ж', .rng 'ж' 'ж']], [.lit ['i', 'n', ' '], .ref 1, .lit [' ', 'w', 'e', 'e', 'k']]),
    (.seqs [.cls false [.rng 'З' 'З', .rng 'з' 'з'], .cls false [.rng 'А' 'А', .rng 'а' 'а'], .lit [' '], .grp 1 (.number), .lit [' '], .cls false [.rng 'Х' 'Х', .rng 'х' 'х'], .cls false [.rng 'В' 'В', .rng 'в' 'в', .rng 'ᲀ' 'ᲀ']], [.lit ['i', 'n', ' '], .ref 1, .lit [' ', 'm', 'i', 'n', 'u', 't', 'e']]),
    (.seqs [.cls false [.rng 'З' 'З', .rng 'з' 'з'], .cls false [.rng 'А' 'А', .rng 'а' 'а'], .lit [' '], .grp 1 (.number), .lit [' '], .cls false [.rng 'Д' 'Д', .rng 'д' 'д', .rng 'ᲁ' 'ᲁ']], [.lit ['i', 'n', ' '], .ref 1, .lit [' ', 'd', 'a', 'y']]),
    (.seqs [.cls false [.rng 'З' 'З', .rng 'з' 'з'], .cls false [.rng 'А' 'А', .rng 'а' 'а'], .lit [' '], .grp 1 (.number), .lit [' '], .cls false [.rng 'Р' 'Р', .rng 'р' 'р']], [.lit ['i', 'n', ' '], .ref 1, .lit [' ', 'y', 'e', 'a', 'r']]),
    (.seqs [.cls false [.rng 'З' 'З', .rng 'з' 'з'], .cls false [.rng 'А' 'А', .rng 'а' 'а'], .lit [' '], .grp 1 (.number), .lit [' '], .cls false [.rng 'С' 'С', .rng 'с' 'с', .rng 'ᲃ' 'ᲃ']], [.lit ['i', 'n', ' '], .ref 1, .lit [' ', 's', 'e', 'c', 'o', 'n', 'd']])],
  rxCombined := some (.seqs [.grp 1 (.alts [.bos, .cls true [.letter, .mark, .digit], .lit ['_']]), .grp 2 (.alts [.seqs [.cls false [.rng 'Ч' 'Ч', .rng 'ч' 'ч'], .cls false [.rng 'Е' 'Е', .rng 'е' 'е'], .cls false [.rng 'Р' 'Р', .rng 'р' 'р'], .cls false [.rng 'Е' 'Е', .rng 'е' 'е'], .cls false [.rng 'З' 'З', .rng 'з' 'з'], .lit [' '], .number, .lit [' '], .cls false [.rng 'С' 'С', .rng 'с' 'с', .rng 'ᲃ' 'ᲃ'], .cls false [.rng 'Е' 'Е', .rng 'е' 'е'], .cls false [.rng 'К' 'К', .rng 'к' 'к'], .cls false [.rng 'У' 'У', .rng 'у' 'у'], .cls false [.rng 'Н' 'Н', .rng 'н' 'н'], .cls false [.rng 'Д' 'Д', .rng 'д' 'д', .rng 'ᲁ' 'ᲁ'], .cls false [.rng 'И' 'И', .rng 'и' 'и']], .seqs [.cls false [.rng 'Ч' 'Ч', .rng 'ч' 'ч'], .cls false [.rng 'Е' 'Е', .rng 'е' 'е'], .cls false [.rng 'Р' 'Р', .rng 'р' 'р'], .cls false [.rng 'Е' 'Е', .rng 'е' 'е'], .cls false [.rng 'З' 'З', .rng 'з' 'з'], .lit [' '], .number, .lit [' '], .cls false [.rng 'С' 'С', .rng 'с' 'с', .rng 'ᲃ' 'ᲃ'], .cls false [.rng 'Е' 'Е', .rng 'е' 'е'], .cls false [.rng 'К' 'К', .rng 'к' 'к'], .cls false [.rng 'У' 'У', .rng 'у' 'у'], .cls false [.rng 'Н' 'Н', .rng 'н' 'н'], .cls false [.rng 'Д' 'Д', .rng 'д' 'д', .rng 'ᲁ' 'ᲁ'], .cls false [.rng 'У' 'У', .rng 'у' 'у']], .seqs [.cls false [.rng 'Ч' 'Ч', .rng 'ч' 'ч'], .cls false [.rng 'Е' 'Е', .rng 'е' 'е'], .cls false [.rng 'Р' 'Р', .rng 'р' 'р'], .cls false [.rng 'Е' 'Е', .rng 'е' 'е'], .cls false [.rng 'З' 'З', .rng 'з' 'з'], .lit [' '], .number, .lit [' '], .cls false [.rng 'Т' 'Т', .rng 'т' 'т', .rng 'ᲄ' 'ᲄ', .rng 'ᲅ' 'ᲅ'], .cls false [.rng 'И' 'И', .rng 'и' 'и'], .cls false [.rng 'Ж' 'Ж', .rng 'ж' 'ж'], .cls false [.rng 'Д' 'Д', .rng 'д' 'д', .rng 'ᲁ' 'ᲁ'], .cls false [.rng 'Е' 'Е', .rng 'е' 'е'], .cls false [.rng 'Н' 'Н', .rng 'н' 'н'], .cls false [.rng 'Ь' 'Ь', .rng 'ь' 'ь']], .seqs [.cls false [.rng 'Ч' 'Ч', .rng 'ч' 'ч'], .cls false [.rng 'Е' 'Е', .rng 'е' 'е'], .cls false [.rng 'Р' 'Р', .rng 'р' 'р'], .cls false [.rng 'Е' 'Е', .rng 'е' 'е'], .cls false [.rng 'З' 'З', .rng 'з' 'з'], .lit [' '], .number, .lit [' '], .cls false [.rng 'Х' 'Х', .rng 'х' 'х'], .cls false [.rng 'В' 'В', .rng 'в' 'в', .rng 'ᲀ' 'ᲀ'], .cls false [.rng 'И' 'И', .rng 'и' 'и'], .cls false [.rng 'Л' 'Л', .rng 'л' 'л'], .cls false [.rng 'И' 'И', .rng 'и' 'и'], .cls false [.rng 'Н' 'Н', .rng 'н' 'н'], .cls false [.rng 'И' 'И', .rng 'и' 'и']], .seqs [.cls false [.rng 'Ч' 'Ч', .rng 'ч' 'ч'], .cls false [.rng 'Е' 'Е', .rng 'е' 'е'], .cls false [.rng 'Р' 'Р', .rng 'р' 'р'], .cls false [.rng 'Е' 'Е', .rng 'е' 'е'], .cls false [.rng 'З' 'З', .rng 'з' 'з'], .lit [' '], .number, .lit [' '], .cls false [.rng 'Х' 'Х', .rng 'х' 'х'], .cls false [.rng 'В' 'В', .rng 'в' 'в', .rng 'ᲀ' 'ᲀ'], .cls false [.rng 'И' 'И', .rng 'и' 'и'], .cls false [.rng 'Л' 'Л', .rng 'л' 'л'], .cls false [.rng 'И' 'И', .rng 'и' 'и'], .cls false [.rng 'Н' 'Н', .rng 'н' 'н'], .cls false [.rng 'У' 'У', .rng 'у' 'у']], .seqs [.number, .lit [' '], .cls false [.rng 'С' 'С', .rng 'с' 'с', .rng 'ᲃ' 'ᲃ'], .cls false [.rng 'Е' 'Е', .rng 'е' 'е'], .cls false [.rng 'К' 'К', .rng 'к' 'к'], .cls false [.rng 'У' 'У', .rng 'у' 'у'], .cls false [.rng 'Н' 'Н', .rng 'н' 'н'], .cls false [.rng 'Д' 'Д', .rng 'д' 'д', .rng 'ᲁ' 'ᲁ'], .cls false [.rng 'А' 'А', .rng 'а' 'а'], .lit [' '], .cls false [.rng 'Т' 'Т', .rng 'т' 'т', .rng 'ᲄ' 'ᲄ', .rng 'ᲅ' 'ᲅ'], .cls false [.rng 'О' 'О', .rng 'о' 'о', .rng 'ᲂ' 'ᲂ'], .cls false [.rng 'М' 'М', .rng 'м' 'м'], .cls false [.rng 'У' 'У', .rng 'у' 'у']], .seqs [.number, .lit [' '], .cls false [.rng 'С' 'С', .rng 'с' 'с', .rng 'ᲃ' 'ᲃ'], .cls false [.rng 'Е' 'Е', .rng 'е' 'е'], .cls false [.rng 'К' 'К', .rng 'к' 'к'], .cls false [.rng 'У' 'У', .rng 'у' 'у'], .cls false [.rng 'Н' 'Н', .rng 'н' 'н'], .cls false [.rng 'Д' 'Д', .rng 'д' 'д', .rng 'ᲁ' 'ᲁ'], .cls false [.rng 'И' 'И', .rng 'и' 'и'], .lit [' '], .cls false [.rng 'Т' 'Т', .rng 'т' 'т', .rng 'ᲄ' 'ᲄ', .rng 'ᲅ' 'ᲅ'], .cls false [.rng 'О' 'О', .rng 'о' 'о', .rng 'ᲂ' 'ᲂ'], .cls false [.rng 'М' 'М', .rng 'м' 'м'], .cls false [.rng 'У' 'У', .rng 'у' 'у']], .seqs [.number, .lit [' '], .cls false [.rng 'С' 'С', .rng 'с' 'с', .rng 'ᲃ' 'ᲃ'], .cls false [.rng 'Е' 'Е', .rng 'е' 'е'], .cls false [.rng 'К' 'К', .rng 'к' 'к'], .cls false [.rng 'У' 'У', .rng 'у' 'у'], .cls false [.rng 'Н' 'Н', .rng 'н' 'н'], .cls false [.rng 'Д' 'Д', .rng 'д' 'д', .rng 'ᲁ' 'ᲁ'], .cls false [.rng 'У' 'У', .rng 'у' 'у'], .lit [' '], .cls false [.rng 'Т' 'Т', .rng 'т' 'т', .rng 'ᲄ' 'ᲄ', .rng 'ᲅ' 'ᲅ'], .cls false [.rng 'О' 'О', .rng 'о' 'о', .rng 'ᲂ' 'ᲂ'], .cls false [.rng 'М' 'М', .rng 'м' 'м'], .cls false [.rng 'У' 'У', .rng 'у' 'у']], .seqs [.number, .lit [' '], .cls false [.rng 'Т' 'Т', .rng 'т' 'т', .rng 'ᲄ' 'ᲄ', .rng 'ᲅ' 'ᲅ'], .cls false [.rng 'И' 'И', .rng 'и' 'и'], .cls false [.rng 'Ж' 'Ж', .rng 'ж' 'ж'], .cls false [.rng 'Д' 'Д', .rng 'д' 'д', .rng 'ᲁ' 'ᲁ'], .cls false [.rng 'Е' 'Е', .rng 'е' 'е'], .cls false [.rng 'Н' 'Н', .rng 'н' 'н'], .cls false [.rng 'Ь' 'Ь', .rng 'ь' 'ь'], .lit [' '], .cls false [.rng 'Т' 'Т', .rng 'т' 'т', .rng 'ᲄ' 'ᲄ', .rng 'ᲅ' 'ᲅ'], .cls false [.rng 'О' 'О', .rng 'о' 'о', .rng 'ᲂ' 'ᲂ'], .cls false [.rng 'М' 'М', .rng 'м' 'м'], .cls false [.rng 'У' 'У', .rng 'у' 'у']], .seqs [.number, .lit [' '], .cls false [.rng 'Х' 'Х', .rng 'х' 'х'], .cls false [.rng 'В' 'В', .rng 'в' 'в', .rng 'ᲀ' 'ᲀ'], .cls false [.rng 'И' 'И', .rng 'и' 'и'], .cls false [.rng 'Л' 'Л', .rng 'л' 'л'], .cls false [.rng 'И' 'И', .rng 'и' 'и'], .cls false [.rng 'Н' 'Н', .rng 'н' 'н'], .cls false [.rng 'А' 'А', .rng 'а' 'а'], .lit [' '], .cls false [.rng 'Т' 'Т', .rng 'т' 'т', .rng 'ᲄ' 'ᲄ', .rng 'ᲅ' 'ᲅ'], .cls false [.rng 'О' 'О', .rng 'о' 'о', .rng 'ᲂ' 'ᲂ'], .cls false [.rng 'М' 'М', .rng 'м' 'м'], .cls false [.rng 'У' 'У', .rng 'у' 'у']], .seqs [.number, .lit [' '], .cls false [.rng 'Х' 'Х', .rng 'х' 'х'], .cls false [.rng 'В' 'В', .rng 'в' 'в', .rng 'ᲀ' 'ᲀ'], .cls false [.rng 'И' 'И', .rng 'и' 'и'], .cls false [.rng 'Л' 'Л', .rng 'л' 'л'], .cls false [.rng 'И' 'И', .rng 'и' 'и'], .cls false [.rng 'Н' 'Н', .rng 'н' 'н'], .cls false [.rng 'И' 'И', .rng 'и' 'и'], .lit [' '], .cls false [.rng 'Т' 'Т', .rng 'т' 'т', .rng 'ᲄ' 'ᲄ', .rng 'ᲅ' 'ᲅ'], .cls false [.rng 'О' 'О', .rng 'о' 'о', .rng 'ᲂ' 'ᲂ'], .cls false [.rng 'М' 'М', .rng 'м' 'м'], .cls false [.rng 'У' 'У', .rng 'у' 'у']], .seqs [.number, .lit [' '], .cls false [.rng 'Х' 'Х', .rng 'х' 'х'], .cls false [.rng 'В' 'В', .rng 'в' 'в', .rng 'ᲀ' 'ᲀ'], .cls false [.rng 'И' 'И', .rng 'и' 'и'], .cls false [.rng 'Л' 'Л', .rng 'л' 'л'], .cls false [.rng 'И' 'И', .rng 'и' 'и'], .cls false [.rng 'Н' 'Н', .rng 'н' 'н'], .cls false [.rng 'У' 'У', .rng 'у' 'у'], .lit [' '], .cls false [.rng 'Т' 'Т', .rng 'т' 'т', .rng 'ᲄ' 'ᲄ', .rng 'ᲅ' 'ᲅ'], .cls false [.rng 'О' 'О', .rng 'о' 'о', .rng 'ᲂ' 'ᲂ'], .cls false [.rng 'М' 'М', .rng 'м' 'м'], .cls false [.rng 'У' 'У', .rng 'у' 'у']], .seqs [.cls false [.rng 'Ч' 'Ч', .rng 'ч' 'ч'], .cls false [.rng 'Е' 'Е', .rng 'е' 'е'], .cls false [.rng 'Р' 'Р', .rng 'р' 'р'], .cls false [.rng 'Е' 'Е', .rng 'е' 'е'], .cls false [.rng 'З' 'З', .rng 'з' 'з'], .lit [' '], .number, .lit [' '], .cls false [.rng 'Г' 'Г', .rng 'г' 'г'], .cls false [.rng 'О' 'О', .rng 'о' 'о', .rng 'ᲂ' 'ᲂ'], .cls false [.rng 'Д' 'Д', .rng 'д' 'д', .rng 'ᲁ' 'ᲁ'], .cls false [.rng 'И' 'И', .rng 'и' 'и'], .cls false [.rng 'Н' 'Н', .rng 'н' 'н'], .cls false [.rng 'И' 'И', .rng 'и' 'и']], .seqs [.cls false [.rng 'Ч' 'Ч', .rng 'ч' 'ч'], .cls false [.rng 'Е' 'Е', .rng 'е' 'е'], .cls false [.rng 'Р' 'Р', .rng 'р' 'р'], .cls false [.rng 'Е' 'Е', .rng 'е' 'е'], .cls false [.rng 'З' 'З', .rng 'з' 'з'], .lit [' '], .number, .lit [' '], .cls false [.rng 'Г' 'Г', .rng 'г' 'г'], .cls false [.rng 'О' 'О', .rng 'о' 'о', .rng 'ᲂ' 'ᲂ'], .cls false [.rng 'Д' 'Д', .rng 'д' 'д', .rng 'ᲁ' 'ᲁ'], .cls false [.rng 'И' 'И', .rng 'и' 'и'], .cls false [.rng 'Н' 'Н', .rng 'н' 'н'], .cls false [.rng 'У' 'У', .rng 'у' 'у']], .seqs [.cls false [.rng 'Ч' 'Ч', .rng 'ч' 'ч'], .cls false [.rng 'Е' 'Е', .rng 'е' 'е'], .cls false [.rng 'Р' 'Р', .rng 'р' 'р'], .cls false [.rng 'Е' 'Е', .rng 'е' 'е'], .cls false [.rng 'З' 'З', .rng 'з' 'з'], .lit [' '], .number, .lit [' '], .cls false [.rng 'М' 'М', .rng 'м' 'м'], .cls false [.rng 'І' 'І', .rng 'і' 'і'], .cls false [.rng 'С' 'С', .rng 'с' 'с', .rng 'ᲃ' 'ᲃ'], .cls false [.rng 'Я' 'Я', .rng 'я' 'я'], .cls false [.rng 'Ц' 'Ц', .rng 'ц' 'ц'], .cls false [.rng 'Ь' 'Ь', .rng 'ь' 'ь']], .seqs [.cls false [.rng 'Ч' 'Ч', .rng 'ч' 'ч'], .cls false [.rng 'Е' 'Е', .rng 'е' 'е'], .cls false [.rng 'Р' 'Р', .rng 'р' 'р'], .cls false [.rng 'Е' 'Е', .rng 'е' 'е'], .cls false [.rng 'З' 'З', .rng 'з' 'з'], .lit [' '], .number, .lit [' '], .cls false [.rng 'М' 'М', .rng 'м' 'м'], .cls false [.rng 'І' 'І', .rng 'і' 'і'], .cls false [.rng 'С' 'С', .rng 'с' 'с', .rng 'ᲃ' 'ᲃ'], .cls false [.rng 'Я' 'Я', .rng 'я' 'я'], .cls false [.rng 'Ц' 'Ц', .rng 'ц' 'ц'], .cls false [.rng 'Я' 'Я', .rng 'я' 'я']], .seqs [.number, .lit [' '], .cls false [.rng 'Г' 'Г', .rng 'г' 'г'], .cls false [.rng 'О' 'О', .rng 'о' 'о', .rng 'ᲂ' 'ᲂ'], .cls false [.rng 'Д' 'Д', .rng 'д' 'д', .rng 'ᲁ' 'ᲁ'], .cls false [.rng 'И' 'И', .rng 'и' 'и'], .cls false [.rng 'Н' 'Н', .rng 'н' 'н'], .cls false [.rng 'А' 'А', .rng 'а' 'а'], .lit [' '], .cls false [.rng 'Т' 'Т', .rng 'т' 'т', .rng 'ᲄ' 'ᲄ', .rng 'ᲅ' 'ᲅ'], .cls false [.rng 'О' 'О', .rng 'о' 'о', .rng 'ᲂ' 'ᲂ'], .cls false [.rng 'М' 'М', .rng 'м' 'м'], .cls false [.rng 'У' 'У', .rng 'у' 'у']], .seqs [.number, .lit [' '], .cls false [.rng 'Г' 'Г', .rng 'г' 'г'], .cls false [.rng 'О' 'О', .rng 'о' 'о', .rng 'ᲂ' 'ᲂ'], .cls false [.rng 'Д' 'Д', .rng 'д' 'д', .rng 'ᲁ' 'ᲁ'], .cls false [.rng 'И' 'И', .rng 'и' 'и'], .cls false [.rng 'Н' 'Н', .rng 'н' 'н'], .cls false [.rng 'И' 'И', .rng 'и' 'и'], .lit [' '], .cls false [.rng 'Т' 'Т', .rng 'т' 'т', .rng 'ᲄ' 'ᲄ', .rng 'ᲅ' 'ᲅ'], .cls false [.rng 'О' 'О', .rng 'о' 'о', .rng 'ᲂ' 'ᲂ'], .cls false [.rng 'М' 'М', .rng 'м' 'м'], .cls false [.rng 'У' 'У', .rng 'у' 'у']], .seqs [.number, .lit [' '], .cls false [.rng 'Г' 'Г', .rng 'г' 'г'], .cls false [.rng 'О' 'О', .rng 'о' 'о', .rng 'ᲂ' 'ᲂ'], .cls false [.rng 'Д' 'Д', .rng 'д' 'д', .rng 'ᲁ' 'ᲁ'], .cls false [.rng 'И' 'И', .rng 'и' 'и'], .cls false [.rng 'Н' 'Н', .rng 'н' 'н'], .cls false [.rng 'У' 'У', .rng 'у' 'у'], .lit [' '], .cls false [.rng 'Т' 'Т', .rng 'т' 'т', .rng 'ᲄ' 'ᲄ', .rng 'ᲅ' 'ᲅ'], .cls false [.rng 'О' 'О', .rng 'о' 'о', .rng 'ᲂ' 'ᲂ'], .cls false [.rng 'М' 'М', .rng 'м' 'м'], .cls false [.rng 'У' 'У', .rng 'у' 'у']], .seqs [.number, .lit [' '], .cls false [.rng 'М' 'М', .rng 'м' 'м'], .cls false [.rng 'І' 'І', .rng 'і' 'і'], .cls false [.rng 'С' 'С', .rng 'с' 'с', .rng 'ᲃ' 'ᲃ'], .cls false [.rng 'Я' 'Я', .rng 'я' 'я'], .cls false [.rng 'Ц' 'Ц', .rng 'ц' 'ц'], .cls false [.rng 'Ь' 'Ь', .rng 'ь' 'ь'], .lit [' '], .cls false [.rng 'Т' 'Т', .rng 'т' 'т', .rng 'ᲄ' 'ᲄ', .rng 'ᲅ' 'ᲅ'], .cls false [.rng 'О' 'О', .rng 'о' 'о', .rng 'ᲂ' 'ᲂ'], .cls false [.rng 'М' 'М', .rng 'м' 'м'], .cls false [.rng 'У' 'У', .rng 'у' 'у']], .seqs [.number, .lit [' '], .cls false [.rng 'М' 'М', .rng 'м' 'м'], .cls false [.rng 'І' 'І', .rng 'і' 'і'], .cls false [.rng 'С' 'С', .rng 'с' 'с', .rng 'ᲃ' 'ᲃ'], .cls false [.rng 'Я' 'Я', .rng 'я' 'я'], .cls false [.rng 'Ц' 'Ц', .rng 'ц' 'ц'], .cls false [.rng 'Я' 'Я', .rng 'я' 'я'], .lit [' '], .cls false [.rng 'Т' 'Т', .rng 'т' 'т', .rng 'ᲄ' 'ᲄ', .rng 'ᲅ' 'ᲅ'], .cls false [.rng 'О' 'О', .rng 'о' 'о', .rng 'ᲂ' 'ᲂ'], .cls false [.rng 'М' 'М', .rng 'м' 'м'], .cls false [.rng 'У' 'У', .rng 'у' 'у']], .seqs [.cls false [.rng 'Ч' 'Ч', .rng 'ч' 'ч'], .cls false [.rng 'Е' 'Е', .rng 'е' 'е'], .cls false [.rng 'Р' 'Р', .rng 'р' 'р'], .cls false [.rng 'Е' 'Е', .rng 'е' 'е'], .cls false [.rng 'З' 'З', .rng 'з' 'з'], .lit [' '], .number, .lit [' '], .cls false [.rng 'Т' 'Т', .rng 'т' 'т', .rng 'ᲄ' 'ᲄ', .rng 'ᲅ' 'ᲅ'], .cls false [.rng 'И' 'И', .rng 'и' 'и'], .cls false [.rng 'Ж' 'Ж', .rng 'ж' 'ж'], .cls false [.rng 'Н' 'Н', .rng 'н' 'н'], .cls false [.rng 'Я' 'Я', .rng 'я' 'я']], .seqs [.number, .lit [' '], .cls false [.rng 'Т' 'Т', .rng 'т' 'т', .rng 'ᲄ' 'ᲄ', .rng 'ᲅ' 'ᲅ'], .cls false [.rng 'И' 'И', .rng 'и' 'и'], .cls false [.rng 'Ж' 'Ж', .rng 'ж' 'ж'], .cls false [.rng 'Н' 'Н', .rng 'н' 'н'], .cls false [.rng 'Я' 'Я', .rng 'я' 'я'], .lit [' '], .cls false [.rng 'Т' 'Т', .rng 'т' 'т', .rng 'ᲄ' 'ᲄ', .rng 'ᲅ' 'ᲅ'], .cls false [.rng 'О' 'О', .rng 'о' 'о', .rng 'ᲂ' 'ᲂ'], .cls false [.rng 'М' 'М', .rng 'м' 'м'], .cls false [.rng 'У' 'У', .rng 'у' 'у']], .seqs [.cls false [.rng 'Ч' 'Ч', .rng 'ч' 'ч'], .cls false [.rng 'Е' 'Е', .rng 'е' 'е'], .cls false [.rng 'Р' 'Р', .rng 'р' 'р'], .cls false [.rng 'Е' 'Е', .rng 'е' 'е'], .cls false [.rng 'З' 'З', .rng 'з' 'з'], .lit [' '], .number, .lit [' '], .cls false [.rng 'Д' 'Д', .rng 'д' 'д', .rng 'ᲁ' 'ᲁ'], .cls false [.rng 'Е' 'Е', .rng 'е' 'е'], .cls false [.rng 'Н' 'Н', .rng 'н' 'н'], .cls false [.rng 'Ь' 'Ь', .rng 'ь' 'ь']], .seqs [.cls false [.rng 'Ч' 'Ч', .rng 'ч' 'ч'], .cls false [.rng 'Е' 'Е', .rng 'е' 'е'], .cls false [.rng 'Р' 'Р', .rng 'р' 'р'], .cls false [.rng 'Е' 'Е', .rng 'е' 'е'], .cls false [.rng 'З' 'З', .rng 'з' 'з'], .lit [' '], .number, .lit [' '], .cls false [.rng 'Р' 'Р', .rng 'р' 'р'], .cls false [.rng 'О' 'О', .rng 'о' 'о', .rng 'ᲂ' 'ᲂ'], .cls false [.rng 'К' 'К', .rng 'к' 'к'], .cls false [.rng 'У' 'У', .rng 'у' 'у']], .seqs [.number, .lit [' '], .cls false [.rng 'Д' 'Д', .rng 'д' 'д', .rng 'ᲁ' 'ᲁ'], .cls false [.rng 'Е' 'Е', .rng 'е' 'е'], .cls false [.rng 'Н' 'Н', .rng 'н' 'н'], .cls false [.rng 'Ь' 'Ь', .rng 'ь' 'ь'], .lit [' '], .cls false [.rng 'Т' 'Т', .rng 'т' 'т', .rng 'ᲄ' 'ᲄ', .rng 'ᲅ' 'ᲅ'], .cls false [.rng 'О' 'О', .rng 'о' 'о', .rng 'ᲂ' 'ᲂ'], .cls false [.rng 'М' 'М', .rng 'м' 'м'], .cls false [.rng 'У' 'У', .rng 'у' 'у']], .seqs [.number, .lit [' '], .cls false [.rng 'Р' 'Р', .rng 'р' 'р'], .cls false [.rng 'О' 'О', .rng 'о' 'о', .rng 'ᲂ' 'ᲂ'], .cls false [.rng 'К' 'К', .rng 'к' 'к'], .cls false [.rng 'У' 'У', .rng 'у' 'у'], .lit [' '], .cls false [.rng 'Т' 'Т', .rng 'т' 'т', .rng 'ᲄ' 'ᲄ', .rng 'ᲅ' 'ᲅ'], .cls false [.rng 'О' 'О', .rng 'о' 'о', .rng 'ᲂ' 'ᲂ'], .cls false [.rng 'М' 'М', .rng 'м' 'м'], .cls false [.rng 'У' 'У', .rng 'у' 'у']], .seqs [.cls false [.rng 'Ч' 'Ч', .rng 'ч' 'ч'], .cls false [.rng 'Е' 'Е', .rng 'е' 'е'], .cls false [.rng 'Р' 'Р', .rng 'р' 'р'], .cls false [.rng 'Е' 'Е', .rng 'е' 'е'], .cls false [.rng 'З' 'З', .rng 'з' 'з'], .lit [' '], .number, .lit [' '], .cls false [.rng 'Г' 'Г', .rng 'г' 'г'], .cls false [.rng 'О' 'О', .rng 'о' 'о', .rng 'ᲂ' 'ᲂ'], .cls false [.rng 'Д' 'Д', .rng 'д' 'д', .rng 'ᲁ' 'ᲁ']], .seqs [.cls false [.rng 'Ч' 'Ч', .rng 'ч' 'ч'], .cls false [.rng 'Е' 'Е', .rng 'е' 'е'], .cls false [.rng 'Р' 'Р', .rng 'р' 'р'], .cls false [.rng 'Е' 'Е', .rng 'е' 'е'], .cls false [.rng 'З' 'З', .rng 'з' 'з'], .lit [' '], .number, .lit [' '], .cls false [.rng 'Д' 'Д', .rng 'д' 'д', .rng 'ᲁ' 'ᲁ'], .cls false [.rng 'Н' 'Н', .rng 'н' 'н'], .cls false [.rng 'Я' 'Я', .rng 'я' 'я']], .seqs [.cls false [.rng 'Ч' 'Ч', .rng 'ч' 'ч'], .cls false [.rng 'Е' 'Е', .rng 'е' 'е'], .cls false [.rng 'Р' 'Р', .rng 'р' 'р'], .cls false [.rng 'Е' 'Е', .rng 'е' 'е'], .cls false [.rng 'З' 'З', .rng 'з' 'з'], .lit [' '], .number, .lit [' '], .cls false [.rng 'М' 'М', .rng 'м' 'м'], .cls false [.rng 'І' 'І', .rng 'і' 'і'], .cls false [.rng 'С' 'С', .rng 'с' 'с', .rng 'ᲃ' 'ᲃ']], .seqs [.cls false [.rng 'Ч' 'Ч', .rng 'ч' 'ч'], .cls false [.rng 'Е' 'Е', .rng 'е' 'е'], .cls false [.rng 'Р' 'Р', .rng 'р' 'р'], .cls false [.rng 'Е' 'Е', .rng 'е' 'е'], .cls false [.rng 'З' 'З', .rng 'з' 'з'], .lit [' '], .number, .lit [' '], .cls false [.rng 'Р' 'Р', .rng 'р' 'р'], .cls false [.rng 'І' 'І', .rng 'і' 'і'], .cls false [.rng 'К' 'К', .rng 'к' 'к']], .seqs [.cls false [.rng 'Ч' 'Ч', .rng 'ч' 'ч'], .cls false [.rng 'Е' 'Е', .rng 'е' 'е'], .cls false [.rng 'Р' 'Р', .rng 'р' 'р'], .cls false [.rng 'Е' 'Е', .rng 'е' 'е'], .cls false [.rng 'З' 'З', .rng 'з' 'з'], .lit [' '], .number, .lit [' '], .cls false [.rng 'Т' 'Т', .rng 'т' 'т', .rng 'ᲄ' 'ᲄ', .rng 'ᲅ' 'ᲅ'], .cls false [.rng 'И' 'И', .rng 'и' 'и'], .cls false [.rng 'Ж' 'Ж', .rng 'ж' 'ж']], .seqs [.number, .lit [' '], .cls false [.rng 'Г' 'Г', .rng 'г' 'г'], .cls false [.rng 'О' 'О', .rng 'о' 'о', .rng 'ᲂ' 'ᲂ'], .cls false [.rng 'Д' 'Д', .rng 'д' 'д', .rng 'ᲁ' 'ᲁ'], .lit [' '], .cls false [.rng 'Т' 'Т', .rng 'т' 'т', .rng 'ᲄ' 'ᲄ', .rng 'ᲅ' 'ᲅ'], .cls false [.rng 'О' 'О', .rng 'о' 'о', .rng 'ᲂ' 'ᲂ'], .cls false [.rng 'М' 'М', .rng 'м' 'м'], .cls false [.rng 'У' 'У', .rng 'у' 'у']], .seqs [.number, .lit [' '], .cls false [.rng 'Д' 'Д', .rng 'д' 'д', .rng 'ᲁ' 'ᲁ'], .cls false [.rng 'Н' 'Н', .rng 'н' 'н'], .cls false [.rng 'Я' 'Я', .rng 'я' 'я'], .lit [' '], .cls false [.rng 'Т' 'Т', .rng 'т' 'т', .rng 'ᲄ' 'ᲄ', .rng 'ᲅ' 'ᲅ'], .cls false [.rng 'О' 'О', .rng 'о' 'о', .rng 'ᲂ' 'ᲂ'], .cls false [.rng 'М' 'М', .rng 'м' 'м'], .cls false [.rng 'У' 'У', .rng 'у' 'у']], .seqs [.number, .lit [' '], .cls false [.rng 'М' 'М', .rng 'м' 'м'], .cls false [.rng 'І' 'І', .rng 'і' 'і'], .cls false [.rng 'С' 'С', .rng 'с' 'с', .rng 'ᲃ' 'ᲃ'], .lit [' '], .cls false [.rng 'Т' 'Т', .rng 'т' 'т', .rng 'ᲄ' 'ᲄ', .rng 'ᲅ' 'ᲅ'], .cls false [.rng 'О' 'О', .rng 'о' 'о', .rng 'ᲂ' 'ᲂ'], .cls false [.rng 'М' 'М', .rng 'м' 'м'], .cls false [.rng 'У' 'У', .rng 'у' 'у']], .seqs [.number, .lit [' '], .cls false [.rng 'Р' 'Р', .rng 'р' 'р'], .cls false [.rng 'І' 'І', .rng 'і' 'і'], .cls false [.rng 'К' 'К', .rng 'к' 'к'], .lit [' '], .cls false [.rng 'Т' 'Т', .rng 'т' 'т', .rng 'ᲄ' 'ᲄ', .rng 'ᲅ' 'ᲅ'], .cls false [.rng 'О' 'О', .rng 'о' 'о', .rng 'ᲂ' 'ᲂ'], .cls false [.rng 'М' 'М', .rng 'м' 'м'], .cls false [.rng 'У' 'У', .rng 'у' 'у']], .seqs [.number, .lit [' '], .cls false [.rng 'Т' 'Т', .rng 'т' 'т', .rng 'ᲄ' 'ᲄ', .rng 'ᲅ' 'ᲅ'], .cls false [.rng 'И' 'И', .rng 'и' 'и'], .cls false [.rng 'Ж' 'Ж', .rng 'ж' 'ж'], .lit [' '], .cls false [.rng 'Т' 'Т', .rng 'т' 'т', .rng 'ᲄ' 'ᲄ', .rng 'ᲅ' 'ᲅ'], .cls false [.rng 'О' 'О', .rng 'о' 'о', .rng 'ᲂ' 'ᲂ'], .cls false [.rng 'М' 'М', .rng 'м' 'м'], .cls false [.rng 'У' 'У', .rng 'у' 'у']], .seqs [.cls false [.rng 'Ч' 'Ч', .rng 'ч' 'ч'], .cls false [.rng 'Е' 'Е', .rng 'е' 'е'], .cls false [.rng 'Р' 'Р', .rng 'р' 'р'], .cls false [.rng 'Е' 'Е', .rng 'е' 'е'], .cls false [.rng 'З' 'З', .rng 'з' 'з'], .lit [' '], .number, .lit [' '], .cls false [.rng 'Д' 'Д', .rng 'д' 'д', .rng 'ᲁ' 'ᲁ'], .cls false [.rng 'Н' 'Н', .rng 'н' 'н']], .seqs [.cls false [.rng 'Ч' 'Ч', .rng 'ч' 'ч'], .cls false [.rng 'Е' 'Е', .rng 'е' 'е'], .cls false [.rng 'Р' 'Р', .rng 'р' 'р'], .cls false [.rng 'Е' 'Е', .rng 'е' 'е'], .cls false [.rng 'З' 'З', .rng 'з' 'з'], .lit [' '], .number, .lit [' '], .cls false [.rng 'Х' 'Х', .rng 'х' 'х'], .cls false [.rng 'В' 'В', .rng 'в' 'в', .rng 'ᲀ' 'ᲀ']], .seqs [.number, .lit [' '], .cls false [.rng 'Д' 'Д', .rng 'д' 'д', .rng 'ᲁ' 'ᲁ'], .cls false [.rng 'Н' 'Н', .rng 'н' 'н'], .lit [' '], .cls false [.rng 'Т' 'Т', .rng 'т' 'т', .rng 'ᲄ' 'ᲄ', .rng 'ᲅ' 'ᲅ'], .cls false [.rng 'О' 'О', .rng 'о' 'о', .rng 'ᲂ' 'ᲂ'], .cls false [.rng 'М' 'М', .rng 'м' 'м'], .cls false [.rng 'У' 'У', .rng 'у' 'у']], .seqs [.number, .lit [' '], .cls false [.rng 'Х' 'Х', .rng 'х' 'х'], .cls false [.rng 'В' 'В', .rng 'в' 'в', .rng 'ᲀ' 'ᲀ'], .lit [' '], .cls false [.rng 'Т' 'Т', .rng 'т' 'т', .rng 'ᲄ' 'ᲄ', .rng 'ᲅ' 'ᲅ'], .cls false [.rng 'О' 'О', .rng 'о' 'о', .rng 'ᲂ' 'ᲂ'], .cls false [.rng 'М' 'М', .rng 'м' 'м'], .cls false [.rng 'У' 'У', .rng 'у' 'у']], .seqs [.cls false [.rng 'Ч' 'Ч', .rng 'ч' 'ч'], .cls false [.rng 'Е' 'Е', .rng 'е' 'е'], .cls false [.rng 'Р' 'Р', .rng 'р' 'р'], .cls false [.rng 'Е' 'Е', .rng 'е' 'е'], .cls false [.rng 'З' 'З', .rng 'з' 'з'], .lit [' '], .number, .lit [' '], .cls false [.rng 'Р' 'Р', .rng 'р' 'р']], .seqs [.cls false [.rng 'Ч' 'Ч', .rng 'ч' 'ч'], .cls false [.rng 'Е' 'Е', .rng 'е' 'е'], .cls false [.rng 'Р' 'Р', .rng 'р' 'р'], .cls false [.rng 'Е' 'Е', .rng 'е' 'е'], .cls false [.rng 'З' 'З', .rng 'з' 'з'], .lit [' '], .number, .lit [' '], .cls false [.rng 'С' 'С', .rng 'с' 'с', .rng 'ᲃ' 'ᲃ']], .seqs [.number, .lit [' '], .cls false [.rng 'Д' 'Д', .rng 'д' 'д', .rng 'ᲁ' 'ᲁ'], .lit [' '], .cls false [.rng 'Т' 'Т', .rng 'т' 'т', .rng 'ᲄ' 'ᲄ', .rng 'ᲅ' 'ᲅ'], .cls false [.rng 'О' 'О', .rng 'о' 'о', .rng 'ᲂ' 'ᲂ'], .cls false [.rng 'М' 'М', .rng 'м' 'м'], .cls false [.rng 'У' 'У', .rng 'у' 'у']], .seqs [.number, .lit [' '], .cls false [.rng 'Р' 'Р', .rng 'р' 'р'], .lit [' '], .cls false [.rng 'Т' 'Т', .rng 'т' 'т', .rng 'ᲄ' 'ᲄ', .rng 'ᲅ' 'ᲅ'], .cls false [.rng 'О' 'О', .rng 'о' 'о', .rng 'ᲂ' 'ᲂ'], .cls false [.rng 'М' 'М', .rng 'м' 'м'], .cls false [.rng 'У' 'У', .rng 'у' 'у']], .seqs [.number, .lit [' '], .cls false [.rng 'С' 'С', .rng 'с' 'с', .rng 'ᲃ' 'ᲃ'], .lit [' '], .cls false [.rng 'Т' 'Т', .rng 'т' 'т', .rng 'ᲄ' 'ᲄ', .rng 'ᲅ' 'ᲅ'], .cls false [.rng 'О' 'О', .rng 'о' 'о', .rng 'ᲂ' 'ᲂ'], .cls false [.rng 'М' 'М', .rng 'м' 'м'], .cls false [.rng 'У' 'У', .rng 'у' 'у']], .seqs [.cls false [.rng 'З' 'З', .rng 'з' 'з'], .cls false [.rng 'А' 'А', .rng 'а' 'а'], .lit [' '], .number, .lit [' '], .cls false [.rng 'Г' 'Г', .rng 'г' 'г'], .cls false [.rng 'О' 'О', .rng 'о' 'о', .rng 'ᲂ' 'ᲂ'], .cls false [.rng 'Д' 'Д', .rng 'д' 'д', .rng 'ᲁ' 'ᲁ']], .seqs [.cls false [.rng 'З' 'З', .rng 'з' 'з'], .cls false [.rng 'А' 'А', .rng 'а' 'а'], .lit [' '], .number, .lit [' '], .cls false [.rng 'М' 'М', .rng 'м' 'м'], .cls false [.rng 'І' 'І', .rng 'і' 'і'], .cls false [.rng 'С' 'С', .rng 'с' 'с', .rng 'ᲃ' 'ᲃ']], .seqs [.cls false [.rng 'З' 'З', .rng 'з' 'з'], .cls false [.rng 'А' 'А', .rng 'а' 'а'], .lit [' '], .number, .lit [' '], .cls false [.rng 'Т' 'Т', .rng 'т' 'т', .rng 'ᲄ' 'ᲄ', .rng 'ᲅ' 'ᲅ'], .cls false [.rng 'И' 'И', .rng 'и' 'и'], .cls false [.rng 'Ж' 'Ж', .rng 'ж' 'ж']], .seqs [.cls false [.rng 'З' 'З', .rng 'з' 'з'], .cls false [.rng 'А' 'А', .rng 'а' 'а'], .lit [' '], .number, .lit [' '], .cls false [.rng 'Х' 'Х', .rng 'х' 'х'], .cls false [.rng 'В' 'В', .rng 'в' 'в', .rng 'ᲀ' 'ᲀ']], .seqs [.cls false [.rng 'З' 'З', .rng 'з' 'з'], .cls false [.rng 'А' 'А', .rng 'а' 'а'], .lit [' '], .number, .lit [' '], .cls false [.rng 'Д' 'Д', .rng 'д' 'д', .rng 'ᲁ' 'ᲁ']], .seqs [.cls false [.rng 'З' 'З', .rng 'з' 'з'], .cls false [.rng 'А' 'А', .rng 'а' 'а'], .lit [' '], .number, .lit [' '], .cls false [.rng 'Р' 'Р', .rng 'р' 'р']], .seqs [.cls false [.rng 'З' 'З', .rng 'з' 'з'], .cls false [.rng 'А' 'А', .rng 'а' 'а'], .lit [' '], .number, .lit [' '], .cls false [.rng 'С' 'С', .rng 'с' 'с', .rng 'ᲃ' 'ᲃ']]]), .grp 3 (.alts [.eos, .cls true [.letter, .mark, .digit], .lit ['_']])], 3),
  rxExact := some (.seqs [.bos, .grp 1 (.alts [.seqs [.cls false [.rng 'Ч' 'Ч', .rng 'ч' 'ч'], .cls false [.rng 'Е' 'Е', .rng 'е' 'е'], .cls false [.rng 'Р' 'Р', .rng 'р' 'р'], .cls false [.rng 'Е' 'Е', .rng 'е' 'е'], .cls false [.rng 'З' 'З', .rng 'з' 'з'], .lit [' '], .number, .lit [' '], .cls false [.rng 'С' 'С', .rng 'с' 'с', .rng 'ᲃ' 'ᲃ'], .cls false [.rng 'Е' 'Е', .rng 'е' 'е'], .cls false [.rng 'К' 'К', .rng 'к' 'к'], .cls false [.rng 'У' 'У', .rng 'у' 'у'], .cls false [.rng 'Н' 'Н', .rng 'н' 'н'], .cls false [.rng 'Д' 'Д', .rng 'д' 'д', .rng 'ᲁ' 'ᲁ'], .cls false [.rng 'И' 'И', .rng 'и' 'и']], .seqs [.cls false [.rng 'Ч' 'Ч', .rng 'ч' 'ч'], .cls false [.rng 'Е' 'Е', .rng 'е' 'е'], .cls false [.rng 'Р' 'Р', .rng 'р' 'р'], .cls false [.rng 'Е' 'Е', .rng 'е' 'е'], .cls false [.rng 'З' 'З', .rng 'з' 'з'], .lit [' '], .number, .lit [' '], .cls false [.rng 'С' 'С', .rng 'с' 'с', .rng 'ᲃ' 'ᲃ'], .cls false [.rng 'Е' 'Е', .rng 'е' 'е'], .cls false [.rng 'К' 'К', .rng 'к' 'к'], .cls false [.rng 'У' 'У', .rng 'у' 'у'], .cls false [.rng 'Н' 'Н', .rng 'н' 'н'], .cls false [.rng 'Д' 'Д', .rng 'д' 'д', .rng 'ᲁ' 'ᲁ'], .cls false [.rng 'У' 'У', .rng 'у' 'у']], .seqs [.cls false [.rng 'Ч' 'Ч', .rng 'ч' 'ч'], .cls false [.rng 'Е' 'Е', .rng 'е' 'е'], .cls false [.rng 'Р' 'Р', .rng 'р' 'р'], .cls false [.rng 'Е' 'Е', .rng 'е' 'е'], .cls false [.rng 'З' 'З', .rng 'з' 'з'], .lit [' '], .number, .lit [' '], .cls false [.rng 'Т' 'Т', .rng 'т' 'т', .rng 'ᲄ' 'ᲄ', .rng 'ᲅ' 'ᲅ'], .cls false [.rng 'И' 'И', .rng 'и' 'и'], .cls false [.rng 'Ж' 'Ж', .rng 'ж' 'ж'], .cls false [.rng 'Д' 'Д', .rng 'д' 'д', .rng 'ᲁ' 'ᲁ'], .cls false [.rng 'Е' 'Е', .rng 'е' 'е'], .cls false [.rng 'Н' 'Н', .rng 'н' 'н'], .cls false [.rng 'Ь' 'Ь', .rng 'ь' 'ь']], .seqs [.cls false [.rng 'Ч' 'Ч', .rng 'ч' 'ч'], .cls false [.rng 'Е' 'Е', .rng 'е' 'е'], .cls false [.rng 'Р' 'Р', .rng 'р' 'р'], .cls false [.rng 'Е' 'Е', .rng 'е' 'е'], .cls false [.rng 'З' 'З', .rng 'з' 'з'], .lit [' '], .number, .lit [' '], .cls false [.rng 'Х' 'Х', .rng 'х' 'х'], .cls false [.rng 'В' 'В', .rng 'в' 'в', .rng 'ᲀ' 'ᲀ'], .cls false [.rng 'И' 'И', .rng 'и' 'и'], .cls false [.rng 'Л' 'Л', .rng 'л' 'л'], .cls false [.rng 'И' 'И', .rng 'и' 'и'], .cls false [.rng 'Н' 'Н', .rng 'н' 'н'], .cls false [.rng 'И' 'И', .rng 'и' 'и']], .seqs [.cls false [.rng 'Ч' 'Ч', .rng 'ч' 'ч'], .cls false [.rng 'Е' 'Е', .rng 'е' 'е'], .cls false [.rng 'Р' 'Р', .rng 'р' 'р'], .cls false [.rng 'Е' 'Е', .rng 'е' 'е'], .cls false [.rng 'З' 'З', .rng 'з' 'з'], .lit [' '], .number, .lit [' '], .cls false [.rng 'Х' 'Х', .rng 'х' 'х'], .cls false [.rng 'В' 'В', .rng 'в' 'в', .rng 'ᲀ' 'ᲀ'], .cls false [.rng 'И' 'И', .rng 'и' 'и'], .cls false [.rng 'Л' 'Л', .rng 'л' 'л'], .cls false [.rng 'И' 'И', .rng 'и' 'и'], .cls false [.rng 'Н' 'Н', .rng 'н' 'н'], .cls false [.rng 'У' 'У', .rng 'у' 'у']], .seqs [.number, .lit [' '], .cls false [.rng 'С' 'С', .rng 'с' 'с', .rng 'ᲃ' 'ᲃ'], .cls false [.rng 'Е' 'Е', .rng 'е' 'е'], .cls false [.rng 'К' 'К', .rng 'к' 'к'], .cls false [.rng 'У' 'У', .rng 'у' 'у'], .cls false [.rng 'Н' 'Н', .rng 'н' 'н'], .cls false [.rng 'Д' 'Д', .rng 'д' 'д', .rng 'ᲁ' 'ᲁ'], .cls false [.rng 'А' 'А', .rng 'а' 'а'], .lit [' '], .cls false [.rng 'Т' 'Т', .rng 'т' 'т', .rng 'ᲄ' 'ᲄ', .rng 'ᲅ' 'ᲅ'], .cls false [.rng 'О' 'О', .rng 'о' 'о', .rng 'ᲂ' 'ᲂ'], .cls false [.rng 'М' 'М', .rng 'м' 'м'], .cls false [.rng 'У' 'У', .rng 'у' 'у']], .seqs [.number, .lit [' '], .cls false [.rng 'С' 'С', .rng 'с' 'с', .rng 'ᲃ' 'ᲃ'], .cls false [.rng 'Е' 'Е', .rng 'е' 'е'], .cls false [.rng 'К' 'К', .rng 'к' 'к'], .cls false [.rng 'У' 'У', .rng 'у' 'у'], .cls false [.rng 'Н' 'Н', .rng 'н' 'н'], .cls false [.rng 'Д' 'Д', .rng 'д' 'д', .rng 'ᲁ' 'ᲁ'], .cls false [.rng 'И' 'И', .rng 'и' 'и'], .lit [' '], .cls false [.rng 'Т' 'Т', .rng 'т' 'т', .rng 'ᲄ' 'ᲄ', .rng 'ᲅ' 'ᲅ'], .cls false [.rng 'О' 'О', .rng 'о' 'о', .rng 'ᲂ' 'ᲂ'], .cls false [.rng 'М' 'М', .rng 'м' 'м'], .cls false [.rng 'У' 'У', .rng 'у' 'у']], .seqs [.number, .lit [' '], .cls false [.rng 'С' 'С', .rng 'с' 'с', .rng 'ᲃ' 'ᲃ'], .cls false [.rng 'Е' 'Е', .rng 'е' 'е'], .cls false [.rng 'К' 'К', .rng 'к' 'к'], .cls false [.rng 'У' 'У', .rng 'у' 'у'], .cls false [.rng 'Н' 'Н', .rng 'н' 'н'], .cls false [.rng 'Д' 'Д', .rng 'д' 'д', .rng 'ᲁ' 'ᲁ'], .cls false [.rng 'У' 'У', .rng 'у' 'у'], .lit [' '], .cls false [.rng 'Т' 'Т', .rng 'т' 'т', .rng 'ᲄ' 'ᲄ', .rng 'ᲅ' 'ᲅ'], .cls false [.rng 'О' 'О', .rng 'о' 'о', .rng 'ᲂ' 'ᲂ'], .cls false [.rng 'М' 'М', .rng 'м' 'м'], .cls false [.rng 'У' 'У', .rng 'у' 'у']], .seqs [.number, .lit [' '], .cls false [.rng 'Т' 'Т', .rng 'т' 'т', .rng 'ᲄ' 'ᲄ', .rng 'ᲅ' 'ᲅ'], .cls false [.rng 'И' 'И', .rng 'и' 'и'], .cls false [.rng 'Ж' 'Ж', .rng 'ж' 'ж'], .cls false [.rng 'Д' 'Д', .rng 'д' 'д', .rng 'ᲁ' 'ᲁ'], .cls false [.rng 'Е' 'Е', .rng 'е' 'е'], .cls false [.rng 'Н' 'Н', .rng 'н' 'н'], .cls false [.rng 'Ь' 'Ь', .rng 'ь' 'ь'], .lit [' '], .cls false [.rng 'Т' 'Т', .rng 'т' 'т', .rng 'ᲄ' 'ᲄ', .rng 'ᲅ' 'ᲅ'], .cls false [.rng 'О' 'О', .rng 'о' 'о', .rng 'ᲂ' 'ᲂ'], .cls false [.rng 'М' 'М', .rng 'м' 'м'], .cls false [.rng 'У' 'У', .rng 'у' 'у']], .seqs [.number, .lit [' '], .cls false [.rng 'Х' 'Х', .rng 'х' 'х'], .cls false [.rng 'В' 'В', .rng 'в' 'в', .rng 'ᲀ' 'ᲀ'], .cls false [.rng 'И' 'И', .rng 'и' 'и'], .cls false [.rng 'Л' 'Л', .rng 'л' 'л'], .cls false [.rng 'И' 'И', .rng 'и' 'и'], .cls false [.rng 'Н' 'Н', .rng 'н' 'н'], .cls false [.rng 'А' 'А', .rng 'а' 'а'], .lit [' '], .cls false [.rng 'Т' 'Т', .rng 'т' 'т', .rng 'ᲄ' 'ᲄ', .rng 'ᲅ' 'ᲅ'], .cls false [.rng 'О' 'О', .rng 'о' 'о', .rng 'ᲂ' 'ᲂ'], .cls false [.rng 'М' 'М', .rng 'м' 'м'], .cls false [.rng 'У' 'У', .rng 'у' 'у']], .seqs [.number, .lit [' '], .cls false [.rng 'Х' 'Х', .rng 'х' 'х'], .cls false [.rng 'В' 'В', .rng 'в' 'в', .rng 'ᲀ' 'ᲀ'], .cls false [.rng 'И' 'И', .rng 'и' 'и'], .cls false [.rng 'Л' 'Л', .rng 'л' 'л'], .cls false [.rng 'И' 'И', .rng 'и' 'и'], .cls false [.rng 'Н' 'Н', .rng 'н' 'н'], .cls false [.rng 'И' 'И', .rng 'и' 'и'], .lit [' '], .cls false [.rng 'Т' 'Т', .rng 'т' 'т', .rng 'ᲄ' 'ᲄ', .rng 'ᲅ' 'ᲅ'], .cls false [.rng 'О' 'О', .rng 'о' 'о', .rng 'ᲂ' 'ᲂ'], .cls false [.rng 'М' 'М', .rng 'м' 'м'], .cls false [.rng 'У' 'У', .rng 'у' 'у']], .seqs [.number, .lit [' '], .cls false [.rng 'Х' 'Х', .rng 'х' 'х'], .cls false [.rng 'В' 'В', .rng 'в' 'в', .rng 'ᲀ' 'ᲀ'], .cls false [.rng 'И' 'И', .rng 'и' 'и'], .cls false [.rng 'Л' 'Л', .rng 'л' 'л'], .cls false [.rng 'И' 'И', .rng 'и' 'и'], .cls false [.rng 'Н' 'Н', .rng 'н' 'н'], .cls false [.rng 'У' 'У', .rng 'у' 'у'], .lit [' '], .cls false [.rng 'Т' 'Т', .rng 'т' 'т', .rng 'ᲄ' 'ᲄ', .rng 'ᲅ' 'ᲅ'], .cls false [.rng 'О' 'О', .rng 'о' 'о', .rng 'ᲂ' 'ᲂ'], .cls false [.rng 'М' 'М', .rng 'м' 'м'], .cls false [.rng 'У' 'У', .rng 'у' 'у']], .seqs [.cls false [.rng 'Ч' 'Ч', .rng 'ч' 'ч'], .cls false [.rng 'Е' 'Е', .rng 'е' 'е'], .cls false [.rng 'Р' 'Р', .rng 'р' 'р'], .cls false [.rng 'Е' 'Е', .rng 'е' 'е'], .cls false [.rng 'З' 'З', .rng 'з' 'з'], .lit [' '], .number, .lit [' '], .cls false [.rng 'Г' 'Г', .rng 'г' 'г'], .cls false [.rng 'О' 'О', .rng 'о' 'о', .rng 'ᲂ' 'ᲂ'], .cls false [.rng 'Д' 'Д', .rng 'д' 'д', .rng 'ᲁ' 'ᲁ'], .cls false [.rng 'И' 'И', .rng 'и' 'и'], .cls false [.rng 'Н' 'Н', .rng 'н' 'н'], .cls false [.rng 'И' 'И', .rng 'и' 'и']], .seqs [.cls false [.rng 'Ч' 'Ч', .rng 'ч' 'ч'], .cls false [.rng 'Е' 'Е', .rng 'е' 'е'], .cls false [.rng 'Р' 'Р', .rng 'р' 'р'], .cls false [.rng 'Е' 'Е', .rng 'е' 'е'], .cls false [.rng 'З' 'З', .rng 'з' 'з'], .lit [' '], .number, .lit [' '], .cls false [.rng 'Г' 'Г', .rng 'г' 'г'], .cls false [.rng 'О' 'О', .rng 'о' 'о', .rng 'ᲂ' 'ᲂ'], .cls false [.rng 'Д' 'Д', .rng 'д' 'д', .rng 'ᲁ' 'ᲁ'], .cls false [.rng 'И' 'И', .rng 'и' 'и'], .cls false [.rng 'Н' 'Н', .rng 'н' 'н'], .cls false [.rng 'У' 'У', .rng 'у' 'у']], .seqs [.cls false [.rng 'Ч' 'Ч', .rng 'ч' 'ч'], .cls false [.rng 'Е' 'Е', .rng 'е' 'е'], .cls false [.rng 'Р' 'Р', .rng 'р' 'р'], .cls false [.rng 'Е' 'Е', .rng 'е' 'е'], .cls false [.rng 'З' 'З', .rng 'з' 'з'], .lit [' '], .number, .lit [' '], .cls false [.rng 'М' 'М', .rng 'м' 'м'], .cls false [.rng 'І' 'І', .rng 'і' 'і'], .cls false [.rng 'С' 'С', .rng 'с' 'с', .rng 'ᲃ' 'ᲃ'], .cls false [.rng 'Я' 'Я', .rng 'я' 'я'], .cls false [.rng 'Ц' 'Ц', .rng 'ц' 'ц'], .cls false [.rng 'Ь' 'Ь', .rng 'ь' 'ь']], .seqs [.cls false [.rng 'Ч' 'Ч', .rng 'ч' 'ч'], .cls false [.rng 'Е' 'Е', .rng 'е' 'е'], .cls false [.rng 'Р' 'Р', .rng 'р' 'р'], .cls false [.rng 'Е' 'Е', .rng 'е' 'е'], .cls false [.rng 'З' 'З', .rng 'з' 'з'], .lit [' '], .number, .lit [' '], .cls false [.rng 'М' 'М', .rng 'м' 'м'], .cls false [.rng 'І' 'І', .rng 'і' 'і'], .cls false [.rng 'С' 'С', .rng 'с' 'с', .rng 'ᲃ' 'ᲃ'], .cls false [.rng 'Я' 'Я', .rng 'я' 'я'], .cls false [.rng 'Ц' 'Ц', .rng 'ц' 'ц'], .cls false [.rng 'Я' 'Я', .rng 'я' 'я']], .seqs [.number, .lit [' '], .cls false [.rng 'Г' 'Г', .rng 'г' 'г'], .cls false [.rng 'О' 'О', .rng 'о' 'о', .rng 'ᲂ' 'ᲂ'], .cls false [.rng 'Д' 'Д', .rng 'д' 'д', .rng 'ᲁ' 'ᲁ'], .cls false [.rng 'И' 'И', .rng 'и' 'и'], .cls false [.rng 'Н' 'Н', .rng 'н' 'н'], .cls false [.rng 'А' 'А', .rng 'а' 'а'], .lit [' '], .cls false [.rng 'Т' 'Т', .rng 'т' 'т', .rng 'ᲄ' 'ᲄ', .rng 'ᲅ' 'ᲅ'], .cls false [.rng 'О' 'О', .rng 'о' 'о', .rng 'ᲂ' 'ᲂ'], .cls false [.rng 'М' 'М', .rng 'м' 'м'], .cls false [.rng 'У' 'У', .rng 'у' 'у']], .seqs [.number, .lit [' '], .cls false [.rng 'Г' 'Г', .rng 'г' 'г'], .cls false [.rng 'О' 'О', .rng 'о' 'о', .rng 'ᲂ' 'ᲂ'], .cls false [.rng 'Д' 'Д', .rng 'д' 'д', .rng 'ᲁ' 'ᲁ'], .cls false [.rng 'И' 'И', .rng 'и' 'и'], .cls false [.rng 'Н' 'Н', .rng 'н' 'н'], .cls false [.rng 'И' 'И', .rng 'и' 'и'], .lit [' '], .cls false [.rng 'Т' 'Т', .rng 'т' 'т', .rng 'ᲄ' 'ᲄ', .rng 'ᲅ' 'ᲅ'], .cls false [.rng 'О' 'О', .rng 'о' 'о', .rng 'ᲂ' 'ᲂ'], .cls false [.rng 'М' 'М', .rng 'м' 'м'], .cls false [.rng 'У' 'У', .rng 'у' 'у']], .seqs [.number, .lit [' '], .cls false [.rng 'Г' 'Г', .rng 'г' 'г'], .cls false [.rng 'О' 'О', .rng 'о' 'о', .rng 'ᲂ' 'ᲂ'], .cls false [.rng 'Д' 'Д', .rng 'д' 'д', .rng 'ᲁ' 'ᲁ'], .cls false [.rng 'И' 'И', .rng 'и' 'и'], .cls false [.rng 'Н' 'Н', .rng 'н' 'н'], .cls false [.rng 'У' 'У', .rng 'у' 'у'], .lit [' '], .cls false [.rng 'Т' 'Т', .rng 'т' 'т', .rng 'ᲄ' 'ᲄ', .rng 'ᲅ' 'ᲅ'], .cls false [.rng 'О' 'О', .rng 'о' 'о', .rng 'ᲂ' 'ᲂ'], .cls false [.rng 'М' 'М', .rng 'м' 'м'], .cls false [.rng 'У' 'У', .rng 'у' 'у']], .seqs [.number, .lit [' '], .cls false [.rng 'М' 'М', .rng 'м' 'м'], .cls false [.rng 'І' 'І', .rng 'і' 'і'], .cls false [.rng 'С' 'С', .rng 'с' 'с', .rng 'ᲃ' 'ᲃ'], .cls false [.rng 'Я' 'Я', .rng 'я' 'я'], .cls false [.rng 'Ц' 'Ц', .rng 'ц' 'ц'], .cls false [.rng 'Ь' 'Ь', .rng 'ь' 'ь'], .lit [' '], .cls false [.rng 'Т' 'Т', .rng 'т' 'т', .rng 'ᲄ' 'ᲄ', .rng 'ᲅ' 'ᲅ'], .cls false [.rng 'О' 'О', .rng 'о' 'о', .rng 'ᲂ' 'ᲂ'], .cls false [.rng 'М' 'М', .rng 'м' 'м'], .cls false [.rng 'У' 'У', .rng 'у' 'у']], .seqs [.number, .lit [' '], .cls false [.rng 'М' 'М', .rng 'м' 'м'], .cls false [.rng 'І' 'І', .rng 'і' 'і'], .cls false [.rng 'С' 'С', .rng 'с' 'с', .rng 'ᲃ' 'ᲃ'], .cls false [.rng 'Я' 'Я', .rng 'я' 'я'], .cls false [.rng 'Ц' 'Ц', .rng 'ц' 'ц'], .cls false [.rng 'Я' 'Я', .rng 'я' 'я'], .lit [' '], .cls false [.rng 'Т' 'Т', .rng 'т' 'т', .rng 'ᲄ' 'ᲄ', .rng 'ᲅ' 'ᲅ'], .cls false [.rng 'О' 'О', .rng 'о' 'о', .rng 'ᲂ' 'ᲂ'], .cls false [.rng 'М' 'М', .rng 'м' 'м'], .cls false [.rng 'У' 'У', .rng 'у' 'у']], .seqs [.cls false [.rng 'Ч' 'Ч', .rng 'ч' 'ч'], .cls false [.rng 'Е' 'Е', .rng 'е' 'е'], .cls false [.rng 'Р' 'Р', .rng 'р' 'р'], .cls false [.rng 'Е' 'Е', .rng 'е' 'е'], .cls false [.rng 'З' 'З', .rng 'з' 'з'], .lit [' '], .number, .lit [' '], .cls false [.rng 'Т' 'Т', .rng 'т' 'т', .rng 'ᲄ' 'ᲄ', .rng 'ᲅ' 'ᲅ'], .cls false [.rng 'И' 'И', .rng 'и' 'и'], .cls false [.rng 'Ж' 'Ж', .rng 'ж' 'ж'], .cls false [.rng 'Н' 'Н', .rng 'н' 'н'], .cls false [.rng 'Я' 'Я', .rng 'я' 'я']], .seqs [.number, .lit [' '], .cls false [.rng 'Т' 'Т', .rng 'т' 'т', .rng 'ᲄ' 'ᲄ', .rng 'ᲅ' 'ᲅ'], .cls false [.rng 'И' 'И', .rng 'и' 'и'], .cls false [.rng 'Ж' 'Ж', .rng 'ж' 'ж'], .cls false [.rng 'Н' 'Н', .rng 'н' 'н'], .cls false [.rng 'Я' 'Я', .rng 'я' 'я'], .lit [' '], .cls false [.rng 'Т' 'Т', .rng 'т' 'т', .rng 'ᲄ' 'ᲄ', .rng 'ᲅ' 'ᲅ'], .cls false [.rng 'О' 'О', .rng 'о' 'о', .rng 'ᲂ' 'ᲂ'], .cls false [.rng 'М' 'М', .rng 'м' 'м'], .cls false [.rng 'У' 'У', .rng 'у' 'у']], .seqs [.cls false [.rng 'Ч' 'Ч', .rng 'ч' 'ч'], .cls false [.rng 'Е' 'Е', .rng 'е' 'е'], .cls false [.rng 'Р' 'Р', .rng 'р' 'р'], .cls false [.rng 'Е' 'Е', .rng 'е' 'е'], .cls false [.rng 'З' 'З', .rng 'з' 'з'], .lit [' '], .number, .lit [' '], .cls false [.rng 'Д' 'Д', .rng 'д' 'д', .rng 'ᲁ' 'ᲁ'], .cls false [.rng 'Е' 'Е', .rng 'е' 'е'], .cls false [.rng 'Н' 'Н', .rng 'н' 'н'], .cls false [.rng 'Ь' 'Ь', .rng 'ь' 'ь']], .seqs [.cls false [.rng 'Ч' 'Ч', .rng 'ч' 'ч'], .cls false [.rng 'Е' 'Е', .rng 'е' 'е'], .cls false [.rng 'Р' 'Р', .rng 'р' 'р'], .cls false [.rng 'Е' 'Е', .rng 'е' 'е'], .cls false [.rng 'З' 'З', .rng 'з' 'з'], .lit [' '], .number, .lit [' '], .cls false [.rng 'Р' 'Р', .rng 'р' 'р'], .cls false [.rng 'О' 'О', .rng 'о' 'о', .rng 'ᲂ' 'ᲂ'], .cls false [.rng 'К' 'К', .rng 'к' 'к'], .cls false [.rng 'У' 'У', .rng 'у' 'у']], .seqs [.number, .lit [' '], .cls false [.rng 'Д' 'Д', .rng 'д' 'д', .rng 'ᲁ' 'ᲁ'], .cls false [.rng 'Е' 'Е', .rng 'е' 'е'], .cls false [.rng 'Н' 'Н', .rng 'н' 'н'], .cls false [.rng 'Ь' 'Ь', .rng 'ь' 'ь'], .lit [' '], .cls false [.rng 'Т' 'Т', .rng 'т' 'т', .rng 'ᲄ' 'ᲄ', .rng 'ᲅ' 'ᲅ'], .cls false [.rng 'О' 'О', .rng 'о' 'о', .rng 'ᲂ' 'ᲂ'], .cls false [.rng 'М' 'М', .rng 'м' 'м'], .cls false [.rng 'У' 'У', .rng 'у' 'у']], .seqs [.number, .lit [' '], .cls false [.rng 'Р' 'Р', .rng 'р' 'р'], .cls false [.rng 'О' 'О', .rng 'о' 'о', .rng 'ᲂ' 'ᲂ'], .cls false [.rng 'К' 'К', .rng 'к' 'к'], .cls false [.rng 'У' 'У', .rng 'у' 'у'], .lit [' '], .cls false [.rng 'Т' 'Т', .rng 'т' 'т', .rng 'ᲄ' 'ᲄ', .rng 'ᲅ' 'ᲅ'], .cls false [.rng 'О' 'О', .rng 'о' 'о', .rng 'ᲂ' 'ᲂ'], .cls false [.rng 'М' 'М', .rng 'м' 'м'], .cls false [.rng 'У' 'У', .rng 'у' 'у']], .seqs [.cls false [.rng 'Ч' 'Ч', .rng 'ч' 'ч'], .cls false [.rng 'Е' 'Е', .rng 'е' 'е'], .cls false [.rng 'Р' 'Р', .rng 'р' 'р'], .cls false [.rng 'Е' 'Е', .rng 'е' 'е'], .cls false [.rng 'З' 'З', .rng 'з' 'з'], .lit [' '], .number, .lit [' '], .cls false [.rng 'Г' 'Г', .rng 'г' 'г'], .cls false [.rng 'О' 'О', .rng 'о' 'о', .rng 'ᲂ' 'ᲂ'], .cls false [.rng 'Д' 'Д', .rng 'д' 'д', .rng 'ᲁ' 'ᲁ']], .seqs [.cls false [.rng 'Ч' 'Ч', .rng 'ч' 'ч'], .cls false [.rng 'Е' 'Е', .rng 'е' 'е'], .cls false [.rng 'Р' 'Р', .rng 'р' 'р'], .cls false [.rng 'Е' 'Е', .rng 'е' 'е'], .cls false [.rng 'З' 'З', .rng 'з' 'з'], .lit [' '], .number, .lit [' '], .cls false [.rng 'Д' 'Д', .rng 'д' 'д', .rng 'ᲁ' 'ᲁ'], .cls false [.rng 'Н' 'Н', .rng 'н' 'н'], .cls false [.rng 'Я' 'Я', .rng 'я' 'я']], .seqs [.cls false [.rng 'Ч' 'Ч', .rng 'ч' 'ч'], .cls false [.rng 'Е' 'Е', .rng 'е' 'е'], .cls false [.rng 'Р' 'Р', .rng 'р' 'р'], .cls false [.rng 'Е' 'Е', .rng 'е' 'е'], .cls false [.rng 'З' 'З', .rng 'з' 'з'], .lit [' '], .number, .lit [' '], .cls false [.rng 'М' 'М', .rng 'м' 'м'], .cls false [.rng 'І' 'І', .rng 'і' 'і'], .cls false [.rng 'С' 'С', .rng 'с' 'с', .rng 'ᲃ' 'ᲃ']], .seqs [.cls false [.rng 'Ч' 'Ч', .rng 'ч' 'ч'], .cls false [.rng 'Е' 'Е', .rng 'е' 'е'], .cls false [.rng 'Р' 'Р', .rng 'р' 'р'], .cls false [.rng 'Е' 'Е', .rng 'е' 'е'], .cls false [.rng 'З' 'З', .rng 'з' 'з'], .lit [' '], .number, .lit [' '], .cls false [.rng 'Р' 'Р', .rng 'р' 'р'], .cls false [.rng 'І' 'І', .rng 'і' 'і'], .cls false [.rng 'К' 'К', .rng 'к' 'к']], .seqs [.cls false [.rng 'Ч' 'Ч', .rng 'ч' 'ч'], .cls false [.rng 'Е' 'Е', .rng 'е' 'е'], .cls false [.rng 'Р' 'Р', .rng 'р' 'р'], .cls false [.rng 'Е' 'Е', .rng 'е' 'е'], .cls false [.rng 'З' 'З', .rng 'з' 'з'], .lit [' '], .number, .lit [' '], .cls false [.rng 'Т' 'Т', .rng 'т' 'т', .rng 'ᲄ' 'ᲄ', .rng 'ᲅ' 'ᲅ'], .cls false [.rng 'И' 'И', .rng 'и' 'и'], .cls false [.rng 'Ж' 'Ж', .rng 'ж' 'ж']], .seqs [.number, .lit [' '], .cls false [.rng 'Г' 'Г', .rng 'г' 'г'], .cls false [.rng 'О' 'О', .rng 'о' 'о', .rng 'ᲂ' 'ᲂ'], .cls false [.rng 'Д' 'Д', .rng 'д' 'д', .rng 'ᲁ' 'ᲁ'], .lit [' '], .cls false [.rng 'Т' 'Т', .rng 'т' 'т', .rng 'ᲄ' 'ᲄ', .rng 'ᲅ' 'ᲅ'], .cls false [.rng 'О' 'О', .rng 'о' 'о', .rng 'ᲂ' 'ᲂ'], .cls false [.rng 'М' 'М', .rng 'м' 'м'], .cls false [.rng 'У' 'У', .rng 'у' 'у']], .seqs [.number, .lit [' '], .cls false [.rng 'Д' 'Д', .rng 'д' 'д', .rng 'ᲁ' 'ᲁ'], .cls false [.rng 'Н' 'Н', .rng 'н' 'н'], .cls false [.rng 'Я' 'Я', .rng 'я' 'я'], .lit [' '], .cls false [.rng 'Т' 'Т', .rng 'т' 'т', .rng 'ᲄ' 'ᲄ', .rng 'ᲅ' 'ᲅ'], .cls false [.rng 'О' 'О', .rng 'о' 'о', .rng 'ᲂ' 'ᲂ'], .cls false [.rng 'М' 'М', .rng 'м' 'м'], .cls false [.rng 'У' 'У', .rng 'у' 'у']], .seqs [.number, .lit [' '], .cls false [.rng 'М' 'М', .rng 'м' 'м'], .cls false [.rng 'І' 'І', .rng 'і' 'і'], .cls false [.rng 'С' 'С', .rng 'с' 'с', .rng 'ᲃ' 'ᲃ'], .lit [' '], .cls false [.rng 'Т' 'Т', .rng 'т' 'т', .rng 'ᲄ' 'ᲄ', .rng 'ᲅ' 'ᲅ'], .cls false [.rng 'О' 'О', .rng 'о' 'о', .rng 'ᲂ' 'ᲂ'], .cls false [.rng 'М' 'М', .rng 'м' 'м'], .cls false [.rng 'У' 'У', .rng 'у' 'у']], .seqs [.number, .lit [' '], .cls false [.rng 'Р' 'Р', .rng 'р' 'р'], .cls false [.rng 'І' 'І', .rng 'і' 'і'], .cls false [.rng 'К' 'К', .rng 'к' 'к'], .lit [' '], .cls false [.rng 'Т' 'Т', .rng 'т' 'т', .rng 'ᲄ' 'ᲄ', .rng 'ᲅ' 'ᲅ'], .cls false [.rng 'О' 'О', .rng 'о' 'о', .rng 'ᲂ' 'ᲂ'], .cls false [.rng 'М' 'М', .rng 'м' 'м'], .cls false [.rng 'У' 'У', .rng 'у' 'у']], .seqs [.number, .lit [' '], .cls false [.rng 'Т' 'Т', .rng 'т' 'т', .rng 'ᲄ' 'ᲄ', .rng 'ᲅ' 'ᲅ'], .cls false [.rng 'И' 'И', .rng 'и' 'и'], .cls false [.rng 'Ж' 'Ж', .rng 'ж' 'ж'], .lit [' '], .cls false [.rng 'Т' 'Т', .rng 'т' 'т', .rng 'ᲄ' 'ᲄ', .rng 'ᲅ' 'ᲅ'], .cls false [.rng 'О' 'О', .rng 'о' 'о', .rng 'ᲂ' 'ᲂ'], .cls false [.rng 'М' 'М', .rng 'м' 'м'], .cls false [.rng 'У' 'У', .rng 'у' 'у']], .seqs [.cls false [.rng 'Ч' 'Ч', .rng 'ч' 'ч'], .cls false [.rng 'Е' 'Е', .rng 'е' 'е'], .cls false [.rng 'Р' 'Р', .rng 'р' 'р'], .cls false [.rng 'Е' 'Е', .rng 'е' 'е'], .cls false [.rng 'З' 'З', .rng 'з' 'з'], .lit [' '], .number, .lit [' '], .cls false [.rng 'Д' 'Д', .rng 'д' 'д', .rng 'ᲁ' 'ᲁ'], .cls false [.rng 'Н' 'Н', .rng 'н' 'н']], .seqs [.cls false [.rng 'Ч' 'Ч', .rng 'ч' 'ч'], .cls false [.rng 'Е' 'Е', .rng 'е' 'е'], .cls false [.rng 'Р' 'Р', .rng 'р' 'р'], .cls false [.rng 'Е' 'Е', .rng 'е' 'е'], .cls false [.rng 'З' 'З', .rng 'з' 'з'], .lit [' '], .number, .lit [' '], .cls false [.rng 'Х' 'Х', .rng 'х' 'х'], .cls false [.rng 'В' 'В', .rng 'в' 'в', .rng 'ᲀ' 'ᲀ']], .seqs [.number, .lit [' '], .cls false [.rng 'Д' 'Д', .rng 'д' 'д', .rng 'ᲁ' 'ᲁ'], .cls false [.rng 'Н' 'Н', .rng 'н' 'н'], .lit [' '], .cls false [.rng 'Т' 'Т', .rng 'т' 'т', .rng 'ᲄ' 'ᲄ', .rng 'ᲅ' 'ᲅ'], .cls false [.rng 'О' 'О', .rng 'о' 'о', .rng 'ᲂ' 'ᲂ'], .cls false [.rng 'М' 'М', .rng 'м' 'м'], .cls false [.rng 'У' 'У', .rng 'у' 'у']], .seqs [.number, .lit [' '], .cls false [.rng 'Х' 'Х', .rng 'х' 'х'], .cls false [.rng 'В' 'В', .rng 'в' 'в', .rng 'ᲀ' 'ᲀ'], .lit [' '], .cls false [.rng 'Т' 'Т', .rng 'т' 'т', .rng 'ᲄ' 'ᲄ', .rng 'ᲅ' 'ᲅ'], .cls false [.rng 'О' 'О', .rng 'о' 'о', .rng 'ᲂ' 'ᲂ'], .cls false [.rng 'М' 'М', .rng 'м' 'м'], .cls false [.rng 'У' 'У', .rng 'у' 'у']], .seqs [.cls false [.rng 'Ч' 'Ч', .rng 'ч' 'ч'], .cls false [.rng 'Е' 'Е', .rng 'е' 'е'], .cls false [.rng 'Р' 'Р', .rng 'р' 'р'], .cls false [.rng 'Е' 'Е', .rng 'е' 'е'], .cls false [.rng 'З' 'З', .rng 'з' 'з'], .lit [' '], .number, .lit [' '], .cls false [.rng 'Р' 'Р', .rng 'р' 'р']], .seqs [.cls false [.rng 'Ч' 'Ч', .rng 'ч' 'ч'], .cls false [.rng 'Е' 'Е', .rng 'е' 'е'], .cls false [.rng 'Р' 'Р', .rng 'р' 'р'], .cls false [.rng 'Е' 'Е', .rng 'е' 'е'], .cls false [.rng 'З' 'З', .rng 'з' 'з'], .lit [' '], .number, .lit [' '], .cls false [.rng 'С' 'С', .rng 'с' 'с', .rng 'ᲃ' 'ᲃ']], .seqs [.number, .lit [' '], .cls false [.rng 'Д' 'Д', .rng 'д' 'д', .rng 'ᲁ' 'ᲁ'], .lit [' '], .cls false [.rng 'Т' 'Т', .rng 'т' 'т', .rng 'ᲄ' 'ᲄ', .rng 'ᲅ' 'ᲅ'], .cls false [.rng 'О' 'О', .rng 'о' 'о', .rng 'ᲂ' 'ᲂ'], .cls false [.rng 'М' 'М', .rng 'м' 'м'], .cls false [.rng 'У' 'У', .rng 'у' 'у']], .seqs [.number, .lit [' '], .cls false [.rng 'Р' 'Р', .rng 'р' 'р'], .lit [' '], .cls false [.rng 'Т' 'Т', .rng 'т' 'т', .rng 'ᲄ' 'ᲄ', .rng 'ᲅ' 'ᲅ'], .cls false [.rng 'О' 'О', .rng 'о' 'о', .rng 'ᲂ' 'ᲂ'], .cls false [.rng 'М' 'М', .rng 'м' 'м'], .cls false [.rng 'У' 'У', .rng 'у' 'у']], .seqs [.number, .lit [' '], .cls false [.rng 'С' 'С', .rng 'с' 'с', .rng 'ᲃ' 'ᲃ'], .lit [' '], .cls false [.rng 'Т' 'Т', .rng 'т' 'т', .rng 'ᲄ' 'ᲄ', .rng 'ᲅ' 'ᲅ'], .cls false [.rng 'О' 'О', .rng 'о' 'о', .rng 'ᲂ' 'ᲂ'], .cls false [.rng 'М' 'М', .rng 'м' 'м'], .cls false [.rng 'У' 'У', .rng 'у' 'у']], .seqs [.cls false [.rng 'З' 'З', .rng 'з' 'з'], .cls false [.rng 'А' 'А', .rng 'а' 'а'], .lit [' '], .number, .lit [' '], .cls false [.rng 'Г' 'Г', .rng 'г' 'г'], .cls false [.rng 'О' 'О', .rng 'о' 'о', .rng 'ᲂ' 'ᲂ'], .cls false [.rng 'Д' 'Д', .rng 'д' 'д', .rng 'ᲁ' 'ᲁ']], .seqs [.cls false [.rng 'З' 'З', .rng 'з' 'з'], .cls false [.rng 'А' 'А', .rng 'а' 'а'], .lit [' '], .number, .lit [' '], .cls false [.rng 'М' 'М', .rng 'м' 'м'], .cls false [.rng 'І' 'І', .rng 'і' 'і'], .cls false [.rng 'С' 'С', .rng 'с' 'с', .rng 'ᲃ' 'ᲃ']], .seqs [.cls false [.rng 'З' 'З', .rng 'з' 'з'], .cls false [.rng 'А' 'А', .rng 'а' 'а'], .lit [' '], .number, .lit [' '], .cls false [.rng 'Т' 'Т', .rng 'т' 'т', .rng 'ᲄ' 'ᲄ', .rng 'ᲅ' 'ᲅ'], .cls false [.rng 'И' 'И', .rng 'и' 'и'], .cls false [.rng 'Ж' 'Ж', .rng 'ж' 'ж']], .seqs [.cls false [.rng 'З' 'З', .rng 'з' 'з'], .cls false [.rng 'А' 'А', .rng 'а' 'а'], .lit [' '], .number, .lit [' '], .cls false [.rng 'Х' 'Х', .rng 'х' 'х'], .cls false [.rng 'В' 'В', .rng 'в' 'в', .rng 'ᲀ' 'ᲀ']], .seqs [.cls false [.rng 'З' 'З', .rng 'з' 'з'], .cls false [.rng 'А' 'А', .rng 'а' 'а'], .lit [' '], .number, .lit [' '], .cls false [.rng 'Д' 'Д', .rng 'д' 'д', .rng 'ᲁ' 'ᲁ']], .seqs [.cls false [.rng 'З' 'З', .rng 'з' 'з'], .cls false [.rng 'А' 'А', .rng 'а' 'а'], .lit [' '], .number, .lit [' '], .cls false [.rng 'Р' 'Р', .rng 'р' 'р']], .seqs [.cls false [.rng 'З' 'З', .rng 'з' 'з'], .cls false [.rng 'А' 'А', .rng 'а' 'а'], .lit [' '], .number, .lit [' '], .cls false [.rng 'С' 'С', .rng 'с' 'с', .rng 'ᲃ' 'ᲃ']]]), .eos]),
  knownWords :=
   [['н', 'а', 'с', 'т', 'у', 'п', 'н', 'о', 'г', 'о', ' ', 'м', 'і', 'с', 'я', 'ц', 'я'], ['н', 'а', 'с', 'т', 'у', 'п', 'н', 'о', 'г', 'о', ' ', 'т', 'и', 'ж', 'н', 'я'], ['м', 'и', 'н', 'у', 'л', 'о', 'г', 'о', ' ', 'м', 'і', 'с', 'я', 'ц', 'я'], ['н', 'а', 'с', 'т', 'у', 'п', 'н', 'о', 'г', 'о', ' ', 'р', 'о', 'к', 'у'], ['м', 'и', 'н', 'у', 'л', 'о', 'г', 'о', ' ', 'т', 'и', 'ж', 'н', 'я'], ['п', 'і', 'с', 'л', 'я', ' ', 'п', 'о', 'л', 'у', 'д', 'н', 'я'], ['ц', 'ь', 'о', 'г', 'о', ' ', 'м', 'і', 'с', 'я', 'ц', 'я'], ['ц', 'і', 'є', 'і', ' ', 'х', 'в', 'и', 'л', 'и', 'н', 'и'], ['п', 'і', 'с', 'л', 'я', 'з', 'а', 'в', 'т', 'р', 'а'], ['ц', 'ь', 'о', 'г', 'о', ' ', 'т', 'и', 'ж', 'н', 'я'], ['ц', 'і', 'є', 'і', ' ', 'г', 'о', 'д', 'и', 'н', 'и'], ['д', 'о', ' ', 'п', 'о', 'л', 'у', 'д', 'н', 'я'], ['ц', 'ь', 'о', 'г', 'о', ' ', 'р', 'о', 'к', 'у'], ['л', 'и', 'с', 'т', 'о', 'п', 'а', 'д', 'а'], ['п', 'о', 'з', 'а', 'в', 'ч', 'о', 'р', 'а'], ['п', 'о', 'н', 'е', 'д', 'і', 'л', 'о', 'к'], ['п', 'о', 'п', 'о', 'л', 'у', 'д', 'н', 'і'], ['п', 'р', 'и', 'б', 'л', 'и', 'з', 'н', 'о'], ['б', 'е', 'р', 'е', 'з', 'е', 'н', 'ь'], ['в', 'е', 'р', 'е', 'с', 'е', 'н', 'ь'], ['в', 'і', 'в', 'т', 'о', 'р', 'о', 'к'], ['л', 'и', 'с', 'т', 'о', 'п', 'а', 'д'], ['м', 'і', 'с', 'я', 'ц', 'е', 'в', 'і'], ['м', 'і', 'с', 'я', 'ц', 'я', 'м', 'и'], ['п', '\'', 'я', 'т', 'н', 'и', 'ц', 'я'], ['п', 'р', 'о', 'т', 'я', 'г', 'о', 'м'], ['с', 'е', 'к', 'у', 'н', 'д', 'о', 'ю'], ['с', 'ь', 'о', 'г', 'о', 'д', 'н', 'і'], ['х', 'в', 'и', 'л', 'и', 'н', 'о', 'ю'], ['б', 'е', 'р', 'е', 'з', 'н', 'я'], ['б', 'л', 'и', 'з', 'ь', 'к', 'о'], ['в', 'е', 'р', 'е', 'с', 'н', 'я'], ['г', 'о', 'д', 'и', 'н', 'о', 'ю'], ['г', 'р', 'у', 'д', 'е', 'н', 'ь'], ['ж', 'о', 'в', 'т', 'е', 'н', 'ь'], ['к', 'в', 'і', 'т', 'е', 'н', 'ь'], ['м', 'і', 'с', 'я', 'ц', 'е', 'м'], ['м', 'і', 'с', 'я', 'ц', 'я', 'м'], ['м', 'і', 'с', 'я', 'ц', 'я', 'х'], ['м', 'і', 'с', 'я', 'ц', 'і', 'в'], ['с', 'е', 'к', 'у', 'н', 'д', 'а'], ['с', 'е', 'к', 'у', 'н', 'д', 'и'], ['с', 'е', 'к', 'у', 'н', 'д', 'о'], ['с', 'е', 'к', 'у', 'н', 'д', 'у'], ['с', 'е', 'к', 'у', 'н', 'д', 'і'], ['с', 'е', 'р', 'п', 'е', 'н', 'ь'], ['т', 'и', 'ж', 'д', 'е', 'н', 'ь'], ['т', 'и', 'ж', 'н', 'е', 'в', 'і'], ['т', 'р', 'а', 'в', 'е', 'н', 'ь'], ['х', 'в', 'и', 'л', 'и', 'н', 'а'], ['х', 'в', 'и', 'л', 'и', 'н', 'и'], ['х', 'в', 'и', 'л', 'и', 'н', 'о'], ['х', 'в', 'и', 'л', 'и', 'н', 'у'], ['х', 'в', 'и', 'л', 'и', 'н', 'і'], ['ч', 'е', 'р', 'в', 'е', 'н', 'ь'], ['в', 'і', 'в', 'т', 'о', 'р'], ['г', 'о', 'д', 'и', 'н', 'а'], ['г', 'о', 'д', 'и', 'н', 'и'], ['г', 'о', 'д', 'и', 'н', 'о'], ['г', 'о', 'д', 'и', 'н', 'у'], ['г', 'о', 'д', 'и', 'н', 'і'], ['г', 'р', 'у', 'д', 'н', 'я'], ['ж', 'о', 'в', 'т', 'н', 'я'], ['з', 'а', 'в', 'т', 'р', 'а'], ['к', 'в', 'і', 'т', 'н', 'я'], ['л', 'и', 'п', 'е', 'н', 'ь'], ['л', 'и', 'с', 'т', 'о', 'п'], ['л', 'ю', 'т', 'о', 'г', 'о'], ['м', 'і', 'с', 'я', 'ц', 'ь'], ['м', 'і', 'с', 'я', 'ц', 'ю'], ['м', 'і', 'с', 'я', 'ц', 'я'], ['м', 'і', 'с', 'я', 'ц', 'і'], ['н', 'е', 'д', 'і', 'л', 'ю'], ['н', 'е', 'д', 'і', 'л', 'я'], ['р', 'о', 'к', 'а', 'м', 'и'], ['р', 'о', 'к', 'о', 'в', 'і'], ['с', 'е', 'к', 'у', 'н', 'д'], ['с', 'е', 'р', 'е', 'д', 'а'], ['с', 'е', 'р', 'е', 'д', 'у'], ['с', 'е', 'р', 'п', 'н', 'я'], ['с', 'у', 'б', 'о', 'т', 'а'], ['с', 'у', 'б', 'о', 'т', 'у'], ['с', 'і', 'ч', 'е', 'н', 'ь'], ['т', 'и', 'ж', 'н', 'е', 'м'], ['т', 'и', 'ж', 'н', 'і', 'в'], ['т', 'р', 'а', 'в', 'н', 'я'], ['х', 'в', 'и', 'л', 'и', 'н'], ['ч', 'е', 'р', 'в', 'н', 'я'], ['ч', 'е', 'т', 'в', 'е', 'р'], ['б', 'е', 'р', 'е', 'з'], ['в', 'е', 'р', 'е', 'с'], ['в', 'ч', 'о', 'р', 'а'], ['г', 'о', 'д', 'и', 'н'], ['д', 'н', 'е', 'в', 'і'], ['з', 'а', 'р', 'а', 'з'], ['л', 'и', 'п', 'н', 'я'], ['л', 'ю', 'т', 'и', 'и'], ['н', 'а', 'з', 'а', 'д'], ['н', 'е', 'д', 'і', 'л'], ['п', 'о', 'н', 'е', 'д'], ['р', 'о', 'к', 'а', 'х'], ['р', 'о', 'к', 'о', 'м'], ['р', 'о', 'к', 'і', 'в'], ['с', 'е', 'р', 'е', 'д'], ['с', 'у', 'б', 'о', 'т'], ['с', 'і', 'ч', 'н', 'я'], ['т', 'и', 'ж', 'н', 'ю'], ['т', 'и', 'ж', 'н', 'я'], ['т', 'и', 'ж', 'н', 'і'], ['т', 'о', 'р', 'і', 'к'], ['у', 'ч', 'о', 'р', 'а'], ['ч', 'е', 'р', 'е', 'з'], ['г', 'р', 'у', 'д'], ['д', 'е', 'н', 'ь'], ['д', 'н', 'е', 'м'], ['д', 'н', 'і', 'в'], ['д', 'о', 'б', 'а'], ['д', 'о', 'б', 'и'], ['ж', 'о', 'в', 'т'], ['к', 'в', 'і', 'т'], ['л', 'и', 'с', 'т'], ['р', 'о', 'к', 'и'], ['р', 'о', 'к', 'у'], ['р', 'о', 'ц', 'і'], ['с', 'е', 'р', 'п'], ['т', 'о', 'м', 'у'], ['т', 'р', 'а', 'в'], ['ч', 'е', 'р', 'в'], ['g', 'm', 't'], ['u', 't', 'c'], ['б', 'е', 'р'], ['в', 'е', 'р'], ['в', 'і', 'в'], ['г', 'о', 'д'], ['г', 'р', 'у'], ['д', 'н', 'ю'], ['д', 'н', 'я'], ['д', 'н', 'і'], ['д', 'і', 'б'], ['ж', 'о', 'в'], ['к', 'в', 'і'], ['л', 'и', 'п'], ['л', 'и', 'с'], ['л', 'ю', 'т'], ['м', 'і', 'с'], ['н', 'е', 'д'], ['п', 'о', 'н'], ['п', 'я', 'т'], ['р', 'і', 'к'], ['с', 'е', 'к'], ['с', 'е', 'р'], ['с', 'у', 'б'], ['с', 'і', 'ч'], ['т', 'и', 'ж'], ['т', 'р', 'а'], ['ч', 'е', 'р'], ['ч', 'е', 'т'], ['a', 'm'], ['p', 'm'], ['в', 'т'], ['д', 'н'], ['д', 'п'], ['з', 'а'], ['н', 'д'], ['о', 'б'], ['п', 'н'], ['п', 'п'], ['п', 'т'], ['с', 'б'], ['с', 'р'], ['х', 'в'], ['ч', 'т'], [' '], ['\''], ['+'], [','], ['-'], ['.'], ['/'], [':'], [';'], ['@'], ['['], [']'], ['z'], ['|'], ['г'], ['д'], ['м'], ['о'], ['р'], ['с'], ['т'], ['і']] }

end Verif.Data
