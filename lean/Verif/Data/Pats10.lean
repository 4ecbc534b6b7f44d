import Verif.Data.Dicts
/-! GENERATED by tools/gen_pats.py from /repo/internal/data; do not edit. -/
set_option autoImplicit false
set_option maxRecDepth 100000
namespace Verif.Data
open Verif.Model

/-- internal/data/ru.go: `ru_BY_Locale`. -/
def ru_BYLang : LangData := ru_BYDict

/-- internal/data/ru.go: `ru_KG_Locale`. -/
def ru_KGLang : LangData := ru_KGDict

/-- internal/data/ru.go: `ru_KZ_Locale`. -/
def ru_KZLang : LangData := ru_KZDict

/-- internal/data/ru.go: `ru_MD_Locale`. -/
def ru_MDLang : LangData := ru_MDDict

/-- internal/data/ru.go: `ru_UA_Locale`. -/
def ru_UALang : LangData := ru_UADict

/-- internal/data/rw.go: `rw_Locale`. -/
def rwLang : LangData := { rwDict with
  knownWords :=
   [['k', 'u', 'w', 'a', ' ', 'g', 'a', 't', 'a', 'n', 'd', 'a', 't', 'u'], ['g', 'a', 's', 'h', 'y', 'a', 'n', 't', 'a', 'r', 'e'], ['k', 'u', ' ', 'c', 'y', 'u', 'm', 'w', 'e', 'r', 'u'], ['k', 'u', 'w', 'a', ' ', 'g', 'a', 't', 'a', 'n', 'u'], ['k', 'u', 'w', 'a', ' ', 'g', 'a', 't', 'a', 't', 'u'], ['k', 'u', 'w', 'a', ' ', 'k', 'a', 'b', 'i', 'r', 'i'], ['t', 'h', 'i', 's', ' ', 'm', 'i', 'n', 'u', 't', 'e'], ['k', 'u', 'w', 'a', ' ', 'm', 'b', 'e', 'r', 'e'], ['l', 'a', 's', 't', ' ', 'm', 'o', 'n', 't', 'h'], ['n', 'e', 'x', 't', ' ', 'm', 'o', 'n', 't', 'h'], ['t', 'h', 'i', 's', ' ', 'm', 'o', 'n', 't', 'h'], ['u', 'g', 'u', 's', 'h', 'y', 'i', 'n', 'g', 'o'], ['g', 'i', 'c', 'u', 'r', 'a', 'n', 's', 'i'], ['k', 'u', 'w', 'a', ' ', 'k', 'a', 'n', 'e'], ['l', 'a', 's', 't', ' ', 'w', 'e', 'e', 'k'], ['l', 'a', 's', 't', ' ', 'y', 'e', 'a', 'r'], ['n', 'e', 'x', 't', ' ', 'w', 'e', 'e', 'k'], ['n', 'e', 'x', 't', ' ', 'y', 'e', 'a', 'r'], ['t', 'h', 'i', 's', ' ', 'h', 'o', 'u', 'r'], ['t', 'h', 'i', 's', ' ', 'w', 'e', 'e', 'k'], ['t', 'h', 'i', 's', ' ', 'y', 'e', 'a', 'r'], ['y', 'e', 's', 't', 'e', 'r', 'd', 'a', 'y'], ['m', 'u', 't', 'a', 'r', 'a', 'm', 'a'], ['n', 'y', 'a', 'k', 'a', 'n', 'g', 'a'], ['t', 'o', 'm', 'o', 'r', 'r', 'o', 'w'], ['u', 'k', 'w', 'a', 'k', 'i', 'r', 'a'], ['u', 'k', 'u', 'b', 'o', 'z', 'a'], ['w', 'e', 'r', 'u', 'r', 'w', 'e'], ['k', 'a', 'm', 'e', 'n', 'a'], ['k', 'a', 'n', 'a', 'm', 'a'], ['m', 'i', 'n', 'u', 't', 'e'], ['s', 'e', 'c', 'o', 'n', 'd'], ['m', 'o', 'n', 't', 'h'], ['n', 'z', 'e', 'l', 'i'], ['t', 'o', 'd', 'a', 'y'], ['h', 'o', 'u', 'r'], ['m', 'a', 't', 'a'], ['w', 'e', 'e', 'k'], ['y', 'e', 'a', 'r'], ['c', 'y', 'u'], ['d', 'a', 'y'], ['g', 'a', 's'], ['g', 'i', 'c'], ['g', 'm', 't'], ['g', 'n', 'd'], ['g', 'n', 'u'], ['g', 't', 'u'], ['k', 'a', 'b'], ['k', 'a', 'm'], ['k', 'a', 'n'], ['m', 'a', 't'], ['m', 'b', 'e'], ['m', 'u', 't'], ['n', 'o', 'w'], ['n', 'y', 'a'], ['n', 'z', 'e'], ['u', 'g', 'u'], ['u', 'k', 'u'], ['u', 'k', 'w'], ['u', 't', 'c'], ['w', 'e', 'r'], ['a', 'm'], ['p', 'm'], [' '], ['\''], ['+'], [','], ['-'], ['.'], ['/'], [':'], [';'], ['@'], ['['], [']'], ['z'], ['|']] }

/-- internal/data/rwk.go: `rwk_Locale`. -/
def rwkLang : LangData := { rwkDict with
  knownWords :=
   [['t', 'h', 'i', 's', ' ', 'm', 'i', 'n', 'u', 't', 'e'], ['l', 'a', 's', 't', ' ', 'm', 'o', 'n', 't', 'h'], ['n', 'e', 'x', 't', ' ', 'm', 'o', 'n', 't', 'h'], ['t', 'h', 'i', 's', ' ', 'm', 'o', 'n', 't', 'h'], ['j', 'u', 'm', 'a', 'p', 'i', 'l', 'y', 'i'], ['j', 'u', 'm', 'a', 't', 'a', 't', 'u', 'u'], ['k', 'y', 'i', 'u', 'k', 'o', 'n', 'y', 'i'], ['l', 'a', 's', 't', ' ', 'w', 'e', 'e', 'k'], ['l', 'a', 's', 't', ' ', 'y', 'e', 'a', 'r'], ['n', 'e', 'x', 't', ' ', 'w', 'e', 'e', 'k'], ['n', 'e', 'x', 't', ' ', 'y', 'e', 'a', 'r'], ['t', 'h', 'i', 's', ' ', 'h', 'o', 'u', 'r'], ['t', 'h', 'i', 's', ' ', 'w', 'e', 'e', 'k'], ['t', 'h', 'i', 's', ' ', 'y', 'e', 'a', 'r'], ['a', 'l', 'h', 'a', 'm', 'i', 's', 'i'], ['f', 'e', 'b', 'r', 'u', 'a', 'r', 'i'], ['j', 'u', 'm', 'a', 'm', 'o', 's', 'i'], ['j', 'u', 'm', 'a', 't', 'a', 'n', 'u'], ['s', 'e', 'p', 't', 'e', 'm', 'b', 'a'], ['a', 'p', 'r', 'i', 'l', 'y', 'i'], ['d', 'a', 'k', 'y', 'i', 'k', 'a'], ['d', 'e', 's', 'e', 'm', 'b', 'a'], ['j', 'a', 'n', 'u', 'a', 'r', 'i'], ['j', 'u', 'm', 'a', 'n', 'n', 'e'], ['n', 'o', 'v', 'e', 'm', 'b', 'a'], ['s', 'e', 'k', 'u', 'n', 'd', 'e'], ['a', 'g', 'u', 's', 't', 'i'], ['i', 'j', 'u', 'm', 'a', 'a'], ['j', 'u', 'l', 'y', 'a', 'i'], ['o', 'k', 't', 'o', 'b', 'a'], ['w', 'i', 'i', 'k', 'y', 'i'], ['j', 'u', 'n', 'y', 'i'], ['m', 'a', 'c', 'h', 'i'], ['m', 'f', 'i', 'r', 'i'], ['n', 'g', 'a', 'm', 'a'], ['u', 't', 'u', 'k', 'o'], ['m', 'a', 'k', 'a'], ['m', 'o', 'r', 'i'], ['u', 'k', 'o', 'u'], ['a', 'g', 'o'], ['a', 'l', 'h'], ['a', 'p', 'r'], ['d', 'e', 's'], ['f', 'e', 'b'], ['g', 'm', 't'], ['i', 'j', 'u'], ['i', 'n', 'u'], ['j', 'a', 'n'], ['j', 'm', 'o'], ['j', 'n', 'n'], ['j', 'p', 'i'], ['j', 't', 'n'], ['j', 't', 't'], ['j', 'u', 'l'], ['j', 'u', 'n'], ['m', 'a', 'c'], ['m', 'e', 'i'], ['n', 'o', 'v'], ['n', 'o', 'w'], ['o', 'k', 't'], ['s', 'a', 'a'], ['s', 'e', 'p'], ['u', 't', 'c'], ['a', 'm'], ['p', 'm'], [' '], ['\''], ['+'], [','], ['-'], ['.'], ['/'], [':'], [';'], ['@'], ['['], [']'], ['z'], ['|']] }

/-- internal/data/sah.go: `sah_Locale`. -/
def sahLang : LangData := { sahDict with
  relativeRegexes :=
   [(.seqs [.grp 1 (.number), .lit [' '], .cls false [.rng 'С' 'С', .rng 'с' 'с', .rng 'ᲃ' 'ᲃ'], .cls false [.rng 'Ө' 'Ө', .rng 'ө' 'ө'], .cls false [.rng 'К' 'К', .rng 'к' 'к'], .cls false [.rng 'Ү' 'Ү', .rng 'ү' 'ү'], .cls false [.rng 'Ү' 'Ү', .rng 'ү' 'ү'], .cls false [.rng 'Н' 'Н', .rng 'н' 'н'], .cls false [.rng 'Д' 'Д', .rng 'д' 'д', .rng 'ᲁ' 'ᲁ'], .cls false [.rng 'Э' 'Э', .rng 'э' 'э'], .lit [' '], .cls false [.rng 'Ы' 'Ы', .rng 'ы' 'ы'], .cls false [.rng 'Н' 'Н', .rng 'н' 'н'], .cls false [.rng 'А' 'А', .rng 'а' 'а'], .cls false [.rng 'Р' 'Р', .rng 'р' 'р'], .cls false [.rng 'А' 'А', .rng 'а' 'а'], .cls false [.rng 'А' 'А', .rng 'а' 'а'], .lit [' '], .cls false [.rng 'Ө' 'Ө', .rng 'ө' 'ө'], .cls false [.rng 'Т' 'Т', .rng 'т' 'т', .rng 'ᲄ' 'ᲄ', .rng 'ᲅ' 'ᲅ'], .cls false [.rng 'Т' 'Т', .rng 'т' 'т', .rng 'ᲄ' 'ᲄ', .rng 'ᲅ' 'ᲅ'], .cls false [.rng 'Ү' 'Ү', .rng 'ү' 'ү'], .cls false [.rng 'Г' 'Г', .rng 'г' 'г'], .cls false [.rng 'Э' 'Э', .rng 'э' 'э'], .cls false [.rng 'Р' 'Р', .rng 'р' 'р']], [.ref 1, .lit [' ', 's', 'e', 'c', 'o', 'n', 'd', ' ', 'a', 'g', 'o']]),
    (.seqs [.grp 1 (.number), .lit [' '], .cls false [.rng 'М' 'М', .rng 'м' 'м'], .cls false [.rng 'Ү' 'Ү', .rng 'ү' 'ү'], .cls false [.rng 'Н' 'Н', .rng 'н' 'н'], .cls false [.rng 'Ү' 'Ү', .rng 'ү' 'ү'], .cls false [.rng 'Ү' 'Ү', .rng 'ү' 'ү'], .cls false [.rng 'Т' 'Т', .rng 'т' 'т', .rng 'ᲄ' 'ᲄ', .rng 'ᲅ' 'ᲅ'], .cls false [.rng 'Э' 'Э', .rng 'э' 'э'], .lit [' '], .cls false [.rng 'Ы' 'Ы', .rng 'ы' 'ы'], .cls false [.rng 'Н' 'Н', .rng 'н' 'н'], .cls false [.rng 'А' 'А', .rng 'а' 'а'], .cls false [.rng 'Р' 'Р', .rng 'р' 'р'], .cls false [.rng 'А' 'А', .rng 'а' 'а'], .cls false [.rng 'А' 'А', .rng 'а' 'а'], .lit [' '], .cls false [.rng 'Ө' 'Ө', .rng 'ө' 'ө'], .cls false [.rng 'Т' 'Т', .rng 'т' 'т', .rng 'ᲄ' 'ᲄ', .rng 'ᲅ' 'ᲅ'], .cls false [.rng 'Т' 'Т', .rng 'т' 'т', .rng 'ᲄ' 'ᲄ', .rng 'ᲅ' 'ᲅ'], .cls false [.rng 'Ү' 'Ү', .rng 'ү' 'ү'], .cls false [.rng 'Г' 'Г', .rng 'г' 'г'], .cls false [.rng 'Э' 'Э', .rng 'э' 'э'], .cls false [.rng 'Р' 'Р', .rng 'р' 'р']], [.ref 1, .lit [' ', 'm', 'i', 'n', 'u', 't', 'e', ' ', 'a', 'g', 'o']]),
    (.seqs [.grp 1 (.number), .lit [' '], .cls false [.rng 'Н' 'Н', .rng 'н' 'н'], .cls false [.rng 'Э' 'Э', .rng 'э' 'э'], .cls false [.rng 'Д' 'Д', .rng 'д' 'д', .rng 'ᲁ' 'ᲁ'], .cls false [.rng 'И' 'И', .rng 'и' 'и'], .cls false [.rng 'Э' 'Э', .rng 'э' 'э'], .cls false [.rng 'Л' 'Л', .rng 'л' 'л'], .cls false [.rng 'Э' 'Э', .rng 'э' 'э'], .lit [' '], .cls false [.rng 'А' 'А', .rng 'а' 'а'], .cls false [.rng 'Н' 'Н', .rng 'н' 'н'], .cls false [.rng 'А' 'А', .rng 'а' 'а'], .cls false [.rng 'Р' 'Р', .rng 'р' 'р'], .cls false [.rng 'А' 'А', .rng 'а' 'а'], .cls false [.rng 'А' 'А', .rng 'а' 'а'], .lit [' '], .cls false [.rng 'Ө' 'Ө', .rng 'ө' 'ө'], .cls false [.rng 'Т' 'Т', .rng 'т' 'т', .rng 'ᲄ' 'ᲄ', .rng 'ᲅ' 'ᲅ'], .cls false [.rng 'Т' 'Т', .rng 'т' 'т', .rng 'ᲄ' 'ᲄ', .rng 'ᲅ' 'ᲅ'], .cls false [.rng 'Ү' 'Ү', .rng 'ү' 'ү'], .cls false [.rng 'Г' 'Г', .rng 'г' 'г'], .cls false [.rng 'Э' 'Э', .rng 'э' 'э'], .cls false [.rng 'Р' 'Р', .rng 'р' 'р']], [.ref 1, .lit [' ', 'w', 'e', 'e', 'k', ' ', 'a', 'g', 'o']]),
    (.seqs [.grp 1 (.number), .lit [' '], .cls false [.rng 'Ч' 'Ч', .rng 'ч' 'ч'], .cls false [.rng 'А' 'А', .rng 'а' 'а'], .cls false [.rng 'А' 'А', .rng 'а' 'а'], .cls false [.rng 'С' 'С', .rng 'с' 'с', .rng 'ᲃ' 'ᲃ'], .lit [' '], .cls false [.rng 'Ы' 'Ы', .rng 'ы' 'ы'], .cls false [.rng 'Н' 'Н', .rng 'н' 'н'], .cls false [.rng 'А' 'А', .rng 'а' 'а'], .cls false [.rng 'Р' 'Р', .rng 'р' 'р'], .cls false [.rng 'А' 'А', .rng 'а' 'а'], .cls false [.rng 'А' 'А', .rng 'а' 'а'], .lit [' '], .cls false [.rng 'Ө' 'Ө', .rng 'ө' 'ө'], .cls false [.rng 'Т' 'Т', .rng 'т' 'т', .rng 'ᲄ' 'ᲄ', .rng 'ᲅ' 'ᲅ'], .cls false [.rng 'Т' 'Т', .rng 'т' 'т', .rng 'ᲄ' 'ᲄ', .rng 'ᲅ' 'ᲅ'], .cls false [.rng 'Ү' 'Ү', .rng 'ү' 'ү'], .cls false [.rng 'Г' 'Г', .rng 'г' 'г'], .cls false [.rng 'Э' 'Э', .rng 'э' 'э'], .cls false [.rng 'Р' 'Р', .rng 'р' 'р']], [.ref 1, .lit [' ', 'h', 'o', 'u', 'r', ' ', 'a', 'g', 'o']]),
    (.seqs [.grp 1 (.number), .lit [' '], .cls false [.rng 'К' 'К', .rng 'к' 'к'], .cls false [.rng 'Ү' 'Ү', .rng 'ү' 'ү'], .cls false [.rng 'Н' 'Н', .rng 'н' 'н'], .lit [' '], .cls false [.rng 'Ы' 'Ы', .rng 'ы' 'ы'], .cls false [.rng 'Н' 'Н', .rng 'н' 'н'], .cls false [.rng 'А' 'А', .rng 'а' 'а'], .cls false [.rng 'Р' 'Р', .rng 'р' 'р'], .cls false [.rng 'А' 'А', .rng 'а' 'а'], .cls false [.rng 'А' 'А', .rng 'а' 'а'], .lit [' '], .cls false [.rng 'Ө' 'Ө', .rng 'ө' 'ө'], .cls false [.rng 'Т' 'Т', .rng 'т' 'т', .rng 'ᲄ' 'ᲄ', .rng 'ᲅ' 'ᲅ'], .cls false [.rng 'Т' 'Т', .rng 'т' 'т', .rng 'ᲄ' 'ᲄ', .rng 'ᲅ' 'ᲅ'], .cls false [.rng 'Ү' 'Ү', .rng 'ү' 'ү'], .cls false [.rng 'Г' 'Г', .rng 'г' 'г'], .cls false [.rng 'Э' 'Э', .rng 'э' 'э'], .cls false [.rng 'Р' 'Р', .rng 'р' 'р']], [.ref 1, .lit [' ', 'd', 'a', 'y', ' ', 'a', 'g', 'o']]),
    (.seqs [.grp 1 (.number), .lit [' '], .cls false [.rng 'С' 'С', .rng 'с' 'с', .rng 'ᲃ' 'ᲃ'], .cls false [.rng 'Ы' 'Ы', .rng 'ы' 'ы'], .cls false [.rng 'Л' 'Л', .rng 'л' 'л'], .lit [' '], .cls false [.rng 'Ы' 'Ы', .rng 'ы' 'ы'], .cls false [.rng 'Н' 'Н', .rng 'н' 'н'], .cls false [.rng 'А' 'А', .rng 'а' 'а'], .cls false [.rng 'Р' 'Р', .rng 'р' 'р'], .cls false [.rng 'А' 'А', .rng 'а' 'а'], .cls false [.rng 'А' 'А', .rng 'а' 'а'], .lit [' '], .cls false [.rng 'Ө' 'Ө', .rng 'ө' 'ө'], .cls false [.rng 'Т' 'Т', .rng 'т' 'т', .rng 'ᲄ' 'ᲄ', .rng 'ᲅ' 'ᲅ'], .cls false [.rng 'Т' 'Т', .rng 'т' 'т', .rng 'ᲄ' 'ᲄ', .rng 'ᲅ' 'ᲅ'], .cls false [.rng 'Ү' 'Ү', .rng 'ү' 'ү'], .cls false [.rng 'Г' 'Г', .rng 'г' 'г'], .cls false [.rng 'Э' 'Э', .rng 'э' 'э'], .cls false [.rng 'Р' 'Р', .rng 'р' 'р']], [.ref 1, .lit [' ', 'y', 'e', 'a', 'r', ' ', 'a', 'g', 'o']]),
    (.seqs [.grp 1 (.number), .lit [' '], .cls false [.rng 'С' 'С', .rng 'с' 'с', .rng 'ᲃ' 'ᲃ'], .cls false [.rng 'Ө' 'Ө', .rng 'ө' 'ө'], .cls false [.rng 'К' 'К', .rng 'к' 'к'], .lit [' '], .cls false [.rng 'А' 'А', .rng 'а' 'а'], .cls false [.rng 'Н' 'Н', .rng 'н' 'н'], .cls false [.rng 'А' 'А', .rng 'а' 'а'], .cls false [.rng 'Р' 'Р', .rng 'р' 'р'], .cls false [.rng 'А' 'А', .rng 'а' 'а'], .cls false [.rng 'А' 'А', .rng 'а' 'а'], .lit [' '], .cls false [.rng 'Ө' 'Ө', .rng 'ө' 'ө'], .cls false [.rng 'Т' 'Т', .rng 'т' 'т', .rng 'ᲄ' 'ᲄ', .rng 'ᲅ' 'ᲅ'], .cls false [.rng 'Т' 'Т', .rng 'т' 'т', .rng 'ᲄ' 'ᲄ', .rng 'ᲅ' 'ᲅ'], .cls false [.rng 'Ү' 'Ү', .rng 'ү' 'ү'], .cls false [.rng 'Г' 'Г', .rng 'г' 'г'], .cls false [.rng 'Э' 'Э', .rng 'э' 'э'], .cls false [.rng 'Р' 'Р', .rng 'р' 'р']], [.ref 1, .lit [' ', 's', 'e', 'c', 'o', 'n', 'd', ' ', 'a', 'g', 'o']]),
    (.seqs [.grp 1 (.number), .lit [' '], .cls false [.rng 'Ы' 'Ы', .rng 'ы' 'ы'], .cls false [.rng 'И' 'И', .rng 'и' 'и'], .lit [' '], .cls false [.rng 'Ы' 'Ы', .rng 'ы' 'ы'], .cls false [.rng 'Н' 'Н', .rng 'н' 'н'], .cls false [.rng 'А' 'А', .rng 'а' 'а'], .cls false [.rng 'Р' 'Р', .rng 'р' 'р'], .cls false [.rng 'А' 'А', .rng 'а' 'а'], .cls false [.rng 'А' 'А', .rng 'а' 'а'], .lit [' '], .cls false [.rng 'Ө' 'Ө', .rng 'ө' 'ө'], .cls false [.rng 'Т' 'Т', .rng 'т' 'т', .rng 'ᲄ' 'ᲄ', .rng 'ᲅ' 'ᲅ'], .cls false [.rng 'Т' 'Т', .rng 'т' 'т', .rng 'ᲄ' 'ᲄ', .rng 'ᲅ' 'ᲅ'], .cls false [.rng 'Ү' 'Ү', .rng 'ү' 'ү'], .cls false [.rng 'Г' 'Г', .rng 'г' 'г'], .cls false [.rng 'Э' 'Э', .rng 'э' 'э'], .cls false [.rng 'Р' 'Р', .rng 'р' 'р']], [.ref 1, .lit [' ', 'm', 'o', 'n', 't', 'h', ' ', 'a', 'g', 'o']]),
    (.seqs [.grp 1 (.number), .lit [' '], .cls false [.rng 'С' 'С', .rng 'с' 'с', .rng 'ᲃ' 'ᲃ'], .cls false [.rng 'Ө' 'Ө', .rng 'ө' 'ө'], .cls false [.rng 'К' 'К', .rng 'к' 'к'], .cls false [.rng 'Ү' 'Ү', .rng 'ү' 'ү'], .cls false [.rng 'Ү' 'Ү', .rng 'ү' 'ү'], .cls false [.rng 'Н' 'Н', .rng 'н' 'н'], .cls false [.rng 'Д' 'Д', .rng 'д' 'д', .rng 'ᲁ' 'ᲁ'], .cls false [.rng 'Э' 'Э', .rng 'э' 'э'], .cls false [.rng 'Н' 'Н', .rng 'н' 'н'], .cls false [.rng 'Н' 'Н', .rng 'н' 'н'], .cls false [.rng 'Э' 'Э', .rng 'э' 'э'], .cls false [.rng 'Н' 'Н', .rng 'н' 'н']], [.lit ['i', 'n', ' '], .ref 1, .lit [' ', 's', 'e', 'c', 'o', 'n', 'd']]),
    (.seqs [.grp 1 (.number), .lit [' '], .cls false [.rng 'М' 'М', .rng 'м' 'м'], .cls false [.rng 'Ү' 'Ү', .rng 'ү' 'ү'], .cls false [.rng 'Н' 'Н', .rng 'н' 'н'], .cls false [.rng 'Ү' 'Ү', .rng 'ү' 'ү'], .cls false [.rng 'Ү' 'Ү', .rng 'ү' 'ү'], .cls false [.rng 'Т' 'Т', .rng 'т' 'т', .rng 'ᲄ' 'ᲄ', .rng 'ᲅ' 'ᲅ'], .cls false [.rng 'Э' 'Э', .rng 'э' 'э'], .cls false [.rng 'Н' 'Н', .rng 'н' 'н'], .cls false [.rng 'Н' 'Н', .rng 'н' 'н'], .cls false [.rng 'Э' 'Э', .rng 'э' 'э'], .cls false [.rng 'Н' 'Н', .rng 'н' 'н']], [.lit ['i', 'n', ' '], .ref 1, .lit [' ', 'm', 'i', 'n', 'u', 't', 'e']]),
    (.seqs [.grp 1 (.number), .lit [' '], .cls false [.rng 'Н' 'Н', .rng 'н' 'н'], .cls false [.rng 'Э' 'Э', .rng 'э' 'э'], .cls false [.rng 'Д' 'Д', .rng 'д' 'д', .rng 'ᲁ' 'ᲁ'], .cls false [.rng 'И' 'И', .rng 'и' 'и'], .cls false [.rng 'Э' 'Э', .rng 'э' 'э'], .cls false [.rng 'Л' 'Л', .rng 'л' 'л'], .cls false [.rng 'Э' 'Э', .rng 'э' 'э'], .cls false [.rng 'Н' 'Н', .rng 'н' 'н'], .cls false [.rng 'Н' 'Н', .rng 'н' 'н'], .cls false [.rng 'Э' 'Э', .rng 'э' 'э'], .cls false [.rng 'Н' 'Н', .rng 'н' 'н']], [.lit ['i', 'n', ' '], .ref 1, .lit [' ', 'w', 'e', 'e', 'k']]),
    (.seqs [.grp 1 (.number), .lit [' '], .cls false [.rng 'Ч' 'Ч', .rng 'ч' 'ч'], .cls false [.rng 'А' 'А', .rng 'а' 'а'], .cls false [.rng 'А' 'А', .rng 'а' 'а'], .cls false [.rng 'Һ' 'Һ', .rng 'һ' 'һ'], .cls false [.rng 'Ы' 'Ы', .rng 'ы' 'ы'], .cls false [.rng 'Н' 'Н', .rng 'н' 'н'], .cls false [.rng 'А' 'А', .rng 'а' 'а'], .cls false [.rng 'Н' 'Н', .rng 'н' 'н']], [.lit ['i', 'n', ' '], .ref 1, .lit [' ', 'h', 'o', 'u', 'r']]),
    (.seqs [.grp 1 (.number), .lit [' '], .cls false [.rng 'К' 'К', .rng 'к' 'к'], .cls false [.rng 'Ү' 'Ү', .rng 'ү' 'ү'], .cls false [.rng 'Н' 'Н', .rng 'н' 'н'], .cls false [.rng 'Ү' 'Ү', .rng 'ү' 'ү'], .cls false [.rng 'Н' 'Н', .rng 'н' 'н'], .cls false [.rng 'Э' 'Э', .rng 'э' 'э'], .cls false [.rng 'Н' 'Н', .rng 'н' 'н']], [.lit ['i', 'n', ' '], .ref 1, .lit [' ', 'd', 'a', 'y']]),
    (.seqs [.grp 1 (.number), .lit [' '], .cls false [.rng 'С' 'С', .rng 'с' 'с', .rng 'ᲃ' 'ᲃ'], .cls false [.rng 'Ы' 'Ы', .rng 'ы' 'ы'], .cls false [.rng 'Л' 'Л', .rng 'л' 'л'], .cls false [.rng 'Ы' 'Ы', .rng 'ы' 'ы'], .cls false [.rng 'Н' 'Н', .rng 'н' 'н'], .cls false [.rng 'А' 'А', .rng 'а' 'а'], .cls false [.rng 'Н' 'Н', .rng 'н' 'н']], [.lit ['i', 'n', ' '], .ref 1, .lit [' ', 'y', 'e', 'a', 'r']]),
    (.seqs [.grp 1 (.number), .lit [' '], .cls false [.rng 'Ы' 'Ы', .rng 'ы' 'ы'], .cls false [.rng 'И' 'И', .rng 'и' 'и'], .cls false [.rng 'Ы' 'Ы', .rng 'ы' 'ы'], .cls false [.rng 'Н' 'Н', .rng 'н' 'н'], .cls false [.rng 'А' 'А', .rng 'а' 'а'], .cls false [.rng 'Н' 'Н', .rng 'н' 'н']], [.lit ['i', 'n', ' '], .ref 1, .lit [' ', 'm', 'o', 'n', 't', 'h']])],
  rxCombined := some (.seqs [.grp 1 (.alts [.bos, .cls true [.letter, .mark, .digit], .lit ['_']]), .grp 2 (.alts [.seqs [.number, .lit [' '], .cls false [.rng 'С' 'С', .rng 'с' 'с', .rng 'ᲃ' 'ᲃ'], .cls false [.rng 'Ө' 'Ө', .rng 'ө' 'ө'], .cls false [.rng 'К' 'К', .rng 'к' 'к'], .cls false [.rng 'Ү' 'Ү', .rng 'ү' 'ү'], .cls false [.rng 'Ү' 'Ү', .rng 'ү' 'ү'], .cls false [.rng 'Н' 'Н', .rng 'н' 'н'], .cls false [.rng 'Д' 'Д', .rng 'д' 'д', .rng 'ᲁ' 'ᲁ'], .cls false [.rng 'Э' 'Э', .rng 'э' 'э'], .lit [' '], .cls false [.rng 'Ы' 'Ы', .rng 'ы' 'ы'], .cls false [.rng 'Н' 'Н', .rng 'н' 'н'], .cls false [.rng 'А' 'А', .rng 'а' 'а'], .cls false [.rng 'Р' 'Р', .rng 'р' 'р'], .cls false [.rng 'А' 'А', .rng 'а' 'а'], .cls false [.rng 'А' 'А', .rng 'а' 'а'], .lit [' '], .cls false [.rng 'Ө' 'Ө', .rng 'ө' 'ө'], .cls false [.rng 'Т' 'Т', .rng 'т' 'т', .rng 'ᲄ' 'ᲄ', .rng 'ᲅ' 'ᲅ'], .cls false [.rng 'Т' 'Т', .rng 'т' 'т', .rng 'ᲄ' 'ᲄ', .rng 'ᲅ' 'ᲅ'], .cls false [.rng 'Ү' 'Ү', .rng 'ү' 'ү'], .cls false [.rng 'Г' 'Г', .rng 'г' 'г'], .cls false [.rng 'Э' 'Э', .rng 'э' 'э'], .cls false [.rng 'Р' 'Р', .rng 'р' 'р']], .seqs [.number, .lit [' '], .cls false [.rng 'М' 'М', .rng 'м' 'м'], .cls false [.rng 'Ү' 'Ү', .rng 'ү' 'ү'], .cls false [.rng 'Н' 'Н', .rng 'н' 'н'], .cls false [.rng 'Ү' 'Ү', .rng 'ү' 'ү'], .cls false [.rng 'Ү' 'Ү', .rng 'ү' 'ү'], .cls false [.rng 'Т' 'Т', .rng 'т' 'т', .rng 'ᲄ' 'ᲄ', .rng 'ᲅ' 'ᲅ'], .cls false [.rng 'Э' 'Э', .rng 'э' 'э'], .lit [' '], .cls false [.rng 'Ы' 'Ы', .rng 'ы' 'ы'], .cls false [.rng 'Н' 'Н', .rng 'н' 'н'], .cls false [.rng 'А' 'А', .rng 'а' 'а'], .cls false [.rng 'Р' 'Р', .rng 'р' 'р'], .cls false [.rng 'А' 'А', .rng 'а' 'а'], .cls false [.rng 'А' 'А', .rng 'а' 'а'], .lit [' '], .cls false [.rng 'Ө' 'Ө', .rng 'ө' 'ө'], .cls false [.rng 'Т' 'Т', .rng 'т' 'т', .rng 'ᲄ' 'ᲄ', .rng 'ᲅ' 'ᲅ'], .cls false [.rng 'Т' 'Т', .rng 'т' 'т', .rng 'ᲄ' 'ᲄ', .rng 'ᲅ' 'ᲅ'], .cls false [.rng 'Ү' 'Ү', .rng 'ү' 'ү'], .cls false [.rng 'Г' 'Г', .rng 'г' 'г'], .cls false [.rng 'Э' 'Э', .rng 'э' 'э'], .cls false [.rng 'Р' 'Р', .rng 'р' 'р']], .seqs [.number, .lit [' '], .cls false [.rng 'Н' 'Н', .rng 'н' 'н'], .cls false [.rng 'Э' 'Э', .rng 'э' 'э'], .cls false [.rng 'Д' 'Д', .rng 'д' 'д', .rng 'ᲁ' 'ᲁ'], .cls false [.rng 'И' 'И', .rng 'и' 'и'], .cls false [.rng 'Э' 'Э', .rng 'э' 'э'], .cls false [.rng 'Л' 'Л', .rng 'л' 'л'], .cls false [.rng 'Э' 'Э', .rng 'э' 'э'], .lit [' '], .cls false [.rng 'А' 'А', .rng 'а' 'а'], .cls false [.rng 'Н' 'Н', .rng 'н' 'н'], .cls false [.rng 'А' 'А', .rng 'а' 'а'], .cls false [.rng 'Р' 'Р', .rng 'р' 'р'], .cls false [.rng 'А' 'А', .rng 'а' 'а'], .cls false [.rng 'А' 'А', .rng 'а' 'а'], .lit [' '], .cls false [.rng 'Ө' 'Ө', .rng 'ө' 'ө'], .cls false [.rng 'Т' 'Т', .rng 'т' 'т', .rng 'ᲄ' 'ᲄ', .rng 'ᲅ' 'ᲅ'], .cls false [.rng 'Т' 'Т', .rng 'т' 'т', .rng 'ᲄ' 'ᲄ', .rng 'ᲅ' 'ᲅ'], .cls false [.rng 'Ү' 'Ү', .rng 'ү' 'ү'], .cls false [.rng 'Г' 'Г', .rng 'г' 'г'], .cls false [.rng 'Э' 'Э', .rng 'э' 'э'], .cls false [.rng 'Р' 'Р', .rng 'р' 'р']], .seqs [.number, .lit [' '], .cls false [.rng 'Ч' 'Ч', .rng 'ч' 'ч'], .cls false [.rng 'А' 'А', .rng 'а' 'а'], .cls false [.rng 'А' 'А', .rng 'а' 'а'], .cls false [.rng 'С' 'С', .rng 'с' 'с', .rng 'ᲃ' 'ᲃ'], .lit [' '], .cls false [.rng 'Ы' 'Ы', .rng 'ы' 'ы'], .cls false [.rng 'Н' 'Н', .rng 'н' 'н'], .cls false [.rng 'А' 'А', .rng 'а' 'а'], .cls false [.rng 'Р' 'Р', .rng 'р' 'р'], .cls false [.rng 'А' 'А', .rng 'а' 'а'], .cls false [.rng 'А' 'А', .rng 'а' 'а'], .lit [' '], .cls false [.rng 'Ө' 'Ө', .rng 'ө' 'ө'], .cls false [.rng 'Т' 'Т', .rng 'т' 'т', .rng 'ᲄ' 'ᲄ', .rng 'ᲅ' 'ᲅ'], .cls false [.rng 'Т' 'Т', .rng 'т' 'т', .rng 'ᲄ' 'ᲄ', .rng 'ᲅ' 'ᲅ'], .cls false [.rng 'Ү' 'Ү', .rng 'ү' 'ү'], .cls false [.rng 'Г' 'Г', .rng 'г' 'г'], .cls false [.rng 'Э' 'Э', .rng 'э' 'э'], .cls false [.rng 'Р' 'Р', .rng 'р' 'р']], .seqs [.number, .lit [' '], .cls false [.rng 'К' 'К', .rng 'к' 'к'], .cls false [.rng 'Ү' 'Ү', .rng 'ү' 'ү'], .cls false [.rng 'Н' 'Н', .rng 'н' 'н'], .lit [' '], .cls false [.rng 'Ы' 'Ы', .rng 'ы' 'ы'], .cls false [.rng 'Н' 'Н', .rng 'н' 'н'], .cls false [.rng 'А' 'А', .rng 'а' 'а'], .cls false [.rng 'Р' 'Р', .rng 'р' 'р'], .cls false [.rng 'А' 'А', .rng 'а' 'а'], .cls false [.rng 'А' 'А', .rng 'а' 'а'], .lit [' '], .cls false [.rng 'Ө' 'Ө', .rng 'ө' 'ө'], .cls false [.rng 'Т' 'Т', .rng 'т' 'т', .rng 'ᲄ' 'ᲄ', .rng 'ᲅ' 'ᲅ'], .cls false [.rng 'Т' 'Т', .rng 'т' 'т', .rng 'ᲄ' 'ᲄ', .rng 'ᲅ' 'ᲅ'], .cls false [.rng 'Ү' 'Ү', .rng 'ү' 'ү'], .cls false [.rng 'Г' 'Г', .rng 'г' 'г'], .cls false [.rng 'Э' 'Э', .rng 'э' 'э'], .cls false [.rng 'Р' 'Р', .rng 'р' 'р']], .seqs [.number, .lit [' '], .cls false [.rng 'С' 'С', .rng 'с' 'с', .rng 'ᲃ' 'ᲃ'], .cls false [.rng 'Ы' 'Ы', .rng 'ы' 'ы'], .cls false [.rng 'Л' 'Л', .rng 'л' 'л'], .lit [' '], .cls false [.rng 'Ы' 'Ы', .rng 'ы' 'ы'], .cls false [.rng 'Н' 'Н', .rng 'н' 'н'], .cls false [.rng 'А' 'А', .rng 'а' 'а'], .cls false [.rng 'Р' 'Р', .rng 'р' 'р'], .cls false [.rng 'А' 'А', .rng 'а' 'а'], .cls false [.rng 'А' 'А', .rng 'а' 'а'], .lit [' '], .cls false [.rng 'Ө' 'Ө', .rng 'ө' 'ө'], .cls false [.rng 'Т' 'Т', .rng 'т' 'т', .rng 'ᲄ' 'ᲄ', .rng 'ᲅ' 'ᲅ'], .cls false [.rng 'Т' 'Т', .rng 'т' 'т', .rng 'ᲄ' 'ᲄ', .rng 'ᲅ' 'ᲅ'], .cls false [.rng 'Ү' 'Ү', .rng 'ү' 'ү'], .cls false [.rng 'Г' 'Г', .rng 'г' 'г'], .cls false [.rng 'Э' 'Э', .rng 'э' 'э'], .cls false [.rng 'Р' 'Р', .rng 'р' 'р']], .seqs [.number, .lit [' '], .cls false [.rng 'С' 'С', .rng 'с' 'с', .rng 'ᲃ' 'ᲃ'], .cls false [.rng 'Ө' 'Ө', .rng 'ө' 'ө'], .cls false [.rng 'К' 'К', .rng 'к' 'к'], .lit [' '], .cls false [.rng 'А' 'А', .rng 'а' 'а'], .cls false [.rng 'Н' 'Н', .rng 'н' 'н'], .cls false [.rng 'А' 'А', .rng 'а' 'а'], .cls false [.rng 'Р' 'Р', .rng 'р' 'р'], .cls false [.rng 'А' 'А', .rng 'а' 'а'], .cls false [.rng 'А' 'А', .rng 'а' 'а'], .lit [' '], .cls false [.rng 'Ө' 'Ө', .rng 'ө' 'ө'], .cls false [.rng 'Т' 'Т', .rng 'т' 'т', .rng 'ᲄ' 'ᲄ', .rng 'ᲅ' 'ᲅ'], .cls false [.rng 'Т' 'Т', .rng 'т' 'т', .rng 'ᲄ' 'ᲄ', .rng 'ᲅ' 'ᲅ'], .cls false [.rng 'Ү' 'Ү', .rng 'ү' 'ү'], .cls false [.rng 'Г' 'Г', .rng 'г' 'г'], .cls false [.rng 'Э' 'Э', .rng 'э' 'э'], .cls false [.rng 'Р' 'Р', .rng 'р' 'р']], .seqs [.number, .lit [' '], .cls false [.rng 'Ы' 'Ы', .rng 'ы' 'ы'], .cls false [.rng 'И' 'И', .rng 'и' 'и'], .lit [' '], .cls false [.rng 'Ы' 'Ы', .rng 'ы' 'ы'], .cls false [.rng 'Н' 'Н', .rng 'н' 'н'], .cls false [.rng 'А' 'А', .rng 'а' 'а'], .cls false [.rng 'Р' 'Р', .rng 'р' 'р'], .cls false [.rng 'А' 'А', .rng 'а' 'а'], .cls false [.rng 'А' 'А', .rng 'а' 'а'], .lit [' '], .cls false [.rng 'Ө' 'Ө', .rng 'ө' 'ө'], .cls false [.rng 'Т' 'Т', .rng 'т' 'т', .rng 'ᲄ' 'ᲄ', .rng 'ᲅ' 'ᲅ'], .cls false [.rng 'Т' 'Т', .rng 'т' 'т', .rng 'ᲄ' 'ᲄ', .rng 'ᲅ' 'ᲅ'], .cls false [.rng 'Ү' 'Ү', .rng 'ү' 'ү'], .cls false [.rng 'Г' 'Г', .rng 'г' 'г'], .cls false [.rng 'Э' 'Э', .rng 'э' 'э'], .cls false [.rng 'Р' 'Р', .rng 'р' 'р']], .seqs [.number, .lit [' '], .cls false [.rng 'С' 'С', .rng 'с' 'с', .rng 'ᲃ' 'ᲃ'], .cls false [.rng 'Ө' 'Ө', .rng 'ө' 'ө'], .cls false [.rng 'К' 'К', .rng 'к' 'к'], .cls false [.rng 'Ү' 'Ү', .rng 'ү' 'ү'], .cls false [.rng 'Ү' 'Ү', .rng 'ү' 'ү'], .cls false [.rng 'Н' 'Н', .rng 'н' 'н'], .cls false [.rng 'Д' 'Д', .rng 'д' 'д', .rng 'ᲁ' 'ᲁ'], .cls false [.rng 'Э' 'Э', .rng 'э' 'э'], .cls false [.rng 'Н' 'Н', .rng 'н' 'н'], .cls false [.rng 'Н' 'Н', .rng 'н' 'н'], .cls false [.rng 'Э' 'Э', .rng 'э' 'э'], .cls false [.rng 'Н' 'Н', .rng 'н' 'н']], .seqs [.number, .lit [' '], .cls false [.rng 'М' 'М', .rng 'м' 'м'], .cls false [.rng 'Ү' 'Ү', .rng 'ү' 'ү'], .cls false [.rng 'Н' 'Н', .rng 'н' 'н'], .cls false [.rng 'Ү' 'Ү', .rng 'ү' 'ү'], .cls false [.rng 'Ү' 'Ү', .rng 'ү' 'ү'], .cls false [.rng 'Т' 'Т', .rng 'т' 'т', .rng 'ᲄ' 'ᲄ', .rng 'ᲅ' 'ᲅ'], .cls false [.rng 'Э' 'Э', .rng 'э' 'э'], .cls false [.rng 'Н' 'Н', .rng 'н' 'н'], .cls false [.rng 'Н' 'Н', .rng 'н' 'н'], .cls false [.rng 'Э' 'Э', .rng 'э' 'э'], .cls false [.rng 'Н' 'Н', .rng 'н' 'н']], .seqs [.number, .lit [' '], .cls false [.rng 'Н' 'Н', .rng 'н' 'н'], .cls false [.rng 'Э' 'Э', .rng 'э' 'э'], .cls false [.rng 'Д' 'Д', .rng 'д' 'д', .rng 'ᲁ' 'ᲁ'], .cls false [.rng 'И' 'И', .rng 'и' 'и'], .cls false [.rng 'Э' 'Э', .rng 'э' 'э'], .cls false [.rng 'Л' 'Л', .rng 'л' 'л'], .cls false [.rng 'Э' 'Э', .rng 'э' 'э'], .cls false [.rng 'Н' 'Н', .rng 'н' 'н'], .cls false [.rng 'Н' 'Н', .rng 'н' 'н'], .cls false [.rng 'Э' 'Э', .rng 'э' 'э'], .cls false [.rng 'Н' 'Н', .rng 'н' 'н']], .seqs [.number, .lit [' '], .cls false [.rng 'Ч' 'Ч', .rng 'ч' 'ч'], .cls false [.rng 'А' 'А', .rng 'а' 'а'], .cls false [.rng 'А' 'А', .rng 'а' 'а'], .cls false [.rng 'Һ' 'Һ', .rng 'һ' 'һ'], .cls false [.rng 'Ы' 'Ы', .rng 'ы' 'ы'], .cls false [.rng 'Н' 'Н', .rng 'н' 'н'], .cls false [.rng 'А' 'А', .rng 'а' 'а'], .cls false [.rng 'Н' 'Н', .rng 'н' 'н']], .seqs [.number, .lit [' '], .cls false [.rng 'К' 'К', .rng 'к' 'к'], .cls false [.rng 'Ү' 'Ү', .rng 'ү' 'ү'], .cls false [.rng 'Н' 'Н', .rng 'н' 'н'], .cls false [.rng 'Ү' 'Ү', .rng 'ү' 'ү'], .cls false [.rng 'Н' 'Н', .rng 'н' 'н'], .cls false [.rng 'Э' 'Э', .rng 'э' 'э'], .cls false [.rng 'Н' 'Н', .rng 'н' 'н']], .seqs [.number, .lit [' '], .cls false [.rng 'С' 'С', .rng 'с' 'с', .rng 'ᲃ' 'ᲃ'], .cls false [.rng 'Ы' 'Ы', .rng 'ы' 'ы'], .cls false [.rng 'Л' 'Л', .rng 'л' 'л'], .cls false [.rng 'Ы' 'Ы', .rng 'ы' 'ы'], .cls false [.rng 'Н' 'Н', .rng 'н' 'н'], .cls false [.rng 'А' 'А', .rng 'а' 'а'], .cls false [.rng 'Н' 'Н', .rng 'н' 'н']], .seqs [.number, .lit [' '], .cls false [.rng 'Ы' 'Ы', .rng 'ы' 'ы'], .cls false [.rng 'И' 'И', .rng 'и' 'и'], .cls false [.rng 'Ы' 'Ы', .rng 'ы' 'ы'], .cls false [.rng 'Н' 'Н', .rng 'н' 'н'], .cls false [.rng 'А' 'А', .rng 'а' 'а'], .cls false [.rng 'Н' 'Н', .rng 'н' 'н']]]), .grp 3 (.alts [.eos, .cls true [.letter, .mark, .digit], .lit ['_']])], 3),
  rxExact := some (.seqs [.bos, .grp 1 (.alts [.seqs [.number, .lit [' '], .cls false [.rng 'С' 'С', .rng 'с' 'с', .rng 'ᲃ' 'ᲃ'], .cls false [.rng 'Ө' 'Ө', .rng 'ө' 'ө'], .cls false [.rng 'К' 'К', .rng 'к' 'к'], .cls false [.rng 'Ү' 'Ү', .rng 'ү' 'ү'], .cls false [.rng 'Ү' 'Ү', .rng 'ү' 'ү'], .cls false [.rng 'Н' 'Н', .rng 'н' 'н'], .cls false [.rng 'Д' 'Д', .rng 'д' 'д', .rng 'ᲁ' 'ᲁ'], .cls false [.rng 'Э' 'Э', .rng 'э' 'э'], .lit [' '], .cls false [.rng 'Ы' 'Ы', .rng 'ы' 'ы'], .cls false [.rng 'Н' 'Н', .rng 'н' 'н'], .cls false [.rng 'А' 'А', .rng 'а' 'а'], .cls false [.rng 'Р' 'Р', .rng 'р' 'р'], .cls false [.rng 'А' 'А', .rng 'а' 'а'], .cls false [.rng 'А' 'А', .rng 'а' 'а'], .lit [' '], .cls false [.rng 'Ө' 'Ө', .rng 'ө' 'ө'], .cls false [.rng 'Т' 'Т', .rng 'т' 'т', .rng 'ᲄ' 'ᲄ', .rng 'ᲅ' 'ᲅ'], .cls false [.rng 'Т' 'Т', .rng 'т' 'т', .rng 'ᲄ' 'ᲄ', .rng 'ᲅ' 'ᲅ'], .cls false [.rng 'Ү' 'Ү', .rng 'ү' 'ү'], .cls false [.rng 'Г' 'Г', .rng 'г' 'г'], .cls false [.rng 'Э' 'Э', .rng 'э' 'э'], .cls false [.rng 'Р' 'Р', .rng 'р' 'р']], .seqs [.number, .lit [' '], .cls false [.rng 'М' 'М', .rng 'м' 'м'], .cls false [.rng 'Ү' 'Ү', .rng 'ү' 'ү'], .cls false [.rng 'Н' 'Н', .rng 'н' 'н'], .cls false [.rng 'Ү' 'Ү', .rng 'ү' 'ү'], .cls false [.rng 'Ү' 'Ү', .rng 'ү' 'ү'], .cls false [.rng 'Т' 'Т', .rng 'т' 'т', .rng 'ᲄ' 'ᲄ', .rng 'ᲅ' 'ᲅ'], .cls false [.rng 'Э' 'Э', .rng 'э' 'э'], .lit [' '], .cls false [.rng 'Ы' 'Ы', .rng 'ы' 'ы'], .cls false [.rng 'Н' 'Н', .rng 'н' 'н'], .cls false [.rng 'А' 'А', .rng 'а' 'а'], .cls false [.rng 'Р' 'Р', .rng 'р' 'р'], .cls false [.rng 'А' 'А', .rng 'а' 'а'], .cls false [.rng 'А' 'А', .rng 'а' 'а'], .lit [' '], .cls false [.rng 'Ө' 'Ө', .rng 'ө' 'ө'], .cls false [.rng 'Т' 'Т', .rng 'т' 'т', .rng 'ᲄ' 'ᲄ', .rng 'ᲅ' 'ᲅ'], .cls false [.rng 'Т' 'Т', .rng 'т' 'т', .rng 'ᲄ' 'ᲄ', .rng 'ᲅ' 'ᲅ'], .cls false [.rng 'Ү' 'Ү', .rng 'ү' 'ү'], .cls false [.rng 'Г' 'Г', .rng 'г' 'г'], .cls false [.rng 'Э' 'Э', .rng 'э' 'э'], .cls false [.rng 'Р' 'Р', .rng 'р' 'р']], .seqs [.number, .lit [' '], .cls false [.rng 'Н' 'Н', .rng 'н' 'н'], .cls false [.rng 'Э' 'Э', .rng 'э' 'э'], .cls false [.rng 'Д' 'Д', .rng 'д' 'д', .rng 'ᲁ' 'ᲁ'], .cls false [.rng 'И' 'И', .rng 'и' 'и'], .cls false [.rng 'Э' 'Э', .rng 'э' 'э'], .cls false [.rng 'Л' 'Л', .rng 'л' 'л'], .cls false [.rng 'Э' 'Э', .rng 'э' 'э'], .lit [' '], .cls false [.rng 'А' 'А', .rng 'а' 'а'], .cls false [.rng 'Н' 'Н', .rng 'н' 'н'], .cls false [.rng 'А' 'А', .rng 'а' 'а'], .cls false [.rng 'Р' 'Р', .rng 'р' 'р'], .cls false [.rng 'А' 'А', .rng 'а' 'а'], .cls false [.rng 'А' 'А', .rng 'а' 'а'], .lit [' '], .cls false [.rng 'Ө' 'Ө', .rng 'ө' 'ө'], .cls false [.rng 'Т' 'Т', .rng 'т' 'т', .rng 'ᲄ' 'ᲄ', .rng 'ᲅ' 'ᲅ'], .cls false [.rng 'Т' 'Т', .rng 'т' 'т', .rng 'ᲄ' 'ᲄ', .rng 'ᲅ' 'ᲅ'], .cls false [.rng 'Ү' 'Ү', .rng 'ү' 'ү'], .cls false [.rng 'Г' 'Г', .rng 'г' 'г'], .cls false [.rng 'Э' 'Э', .rng 'э' 'э'], .cls false [.rng 'Р' 'Р', .rng 'р' 'р']], .seqs [.number, .lit [' '], .cls false [.rng 'Ч' 'Ч', .rng 'ч' 'ч'], .cls false [.rng 'А' 'А', .rng 'а' 'а'], .cls false [.rng 'А' 'А', .rng 'а' 'а'], .cls false [.rng 'С' 'С', .rng 'с' 'с', .rng 'ᲃ' 'ᲃ'], .lit [' '], .cls false [.rng 'Ы' 'Ы', .rng 'ы' 'ы'], .cls false [.rng 'Н' 'Н', .rng 'н' 'н'], .cls false [.rng 'А' 'А', .rng 'а' 'а'], .cls false [.rng 'Р' 'Р', .rng 'р' 'р'], .cls false [.rng 'А' 'А', .rng 'а' 'а'], .cls false [.rng 'А' 'А', .rng 'а' 'а'], .lit [' '], .cls false [.rng 'Ө' 'Ө', .rng 'ө' 'ө'], .cls false [.rng 'Т' 'Т', .rng 'т' 'т', .rng 'ᲄ' 'ᲄ', .rng 'ᲅ' 'ᲅ'], .cls false [.rng 'Т' 'Т', .rng 'т' 'т', .rng 'ᲄ' 'ᲄ', .rng 'ᲅ' 'ᲅ'], .cls false [.rng 'Ү' 'Ү', .rng 'ү' 'ү'], .cls false [.rng 'Г' 'Г', .rng 'г' 'г'], .cls false [.rng 'Э' 'Э', .rng 'э' 'э'], .cls false [.rng 'Р' 'Р', .rng 'р' 'р']], .seqs [.number, .lit [' '], .cls false [.rng 'К' 'К', .rng 'к' 'к'], .cls false [.rng 'Ү' 'Ү', .rng 'ү' 'ү'], .cls false [.rng 'Н' 'Н', .rng 'н' 'н'], .lit [' '], .cls false [.rng 'Ы' 'Ы', .rng 'ы' 'ы'], .cls false [.rng 'Н' 'Н', .rng 'н' 'н'], .cls false [.rng 'А' 'А', .rng 'а' 'а'], .cls false [.rng 'Р' 'Р', .rng 'р' 'р'], .cls false [.rng 'А' 'А', .rng 'а' 'а'], .cls false [.rng 'А' 'А', .rng 'а' 'а'], .lit [' '], .cls false [.rng 'Ө' 'Ө', .rng 'ө' 'ө'], .cls false [.rng 'Т' 'Т', .rng 'т' 'т', .rng 'ᲄ' 'ᲄ', .rng 'ᲅ' 'ᲅ'], .cls false [.rng 'Т' 'Т', .rng 'т' 'т', .rng 'ᲄ' 'ᲄ', .rng 'ᲅ' 'ᲅ'], .cls false [.rng 'Ү' 'Ү', .rng 'ү' 'ү'], .cls false [.rng 'Г' 'Г', .rng 'г' 'г'], .cls false [.rng 'Э' 'Э', .rng 'э' 'э'], .cls false [.rng 'Р' 'Р', .rng 'р' 'р']], .seqs [.number, .lit [' '], .cls false [.rng 'С' 'С', .rng 'с' 'с', .rng 'ᲃ' 'ᲃ'], .cls false [.rng 'Ы' 'Ы', .rng 'ы' 'ы'], .cls false [.rng 'Л' 'Л', .rng 'л' 'л'], .lit [' '], .cls false [.rng 'Ы' 'Ы', .rng 'ы' 'ы'], .cls false [.rng 'Н' 'Н', .rng 'н' 'н'], .cls false [.rng 'А' 'А', .rng 'а' 'а'], .cls false [.rng 'Р' 'Р', .rng 'р' 'р'], .cls false [.rng 'А' 'А', .rng 'а' 'а'], .cls false [.rng 'А' 'А', .rng 'а' 'а'], .lit [' '], .cls false [.rng 'Ө' 'Ө', .rng 'ө' 'ө'], .cls false [.rng 'Т' 'Т', .rng 'т' 'т', .rng 'ᲄ' 'ᲄ', .rng 'ᲅ' 'ᲅ'], .cls false [.rng 'Т' 'Т', .rng 'т' 'т', .rng 'ᲄ' 'ᲄ', .rng 'ᲅ' 'ᲅ'], .cls false [.rng 'Ү' 'Ү', .rng 'ү' 'ү'], .cls false [.rng 'Г' 'Г', .rng 'г' 'г'], .cls false [.rng 'Э' 'Э', .rng 'э' 'э'], .cls false [.rng 'Р' 'Р', .rng 'р' 'р']], .seqs [.number, .lit [' '], .cls false [.rng 'С' 'С', .rng 'с' 'с', .rng 'ᲃ' 'ᲃ'], .cls false [.rng 'Ө' 'Ө', .rng 'ө' 'ө'], .cls false [.rng 'К' 'К', .rng 'к' 'к'], .lit [' '], .cls false [.rng 'А' 'А', .rng 'а' 'а'], .cls false [.rng 'Н' 'Н', .rng 'н' 'н'], .cls false [.rng 'А' 'А', .rng 'а' 'а'], .cls false [.rng 'Р' 'Р', .rng 'р' 'р'], .cls false [.rng 'А' 'А', .rng 'а' 'а'], .cls false [.rng 'А' 'А', .rng 'а' 'а'], .lit [' '], .cls false [.rng 'Ө' 'Ө', .rng 'ө' 'ө'], .cls false [.rng 'Т' 'Т', .rng 'т' 'т', .rng 'ᲄ' 'ᲄ', .rng 'ᲅ' 'ᲅ'], .cls false [.rng 'Т' 'Т', .rng 'т' 'т', .rng 'ᲄ' 'ᲄ', .rng 'ᲅ' 'ᲅ'], .cls false [.rng 'Ү' 'Ү', .rng 'ү' 'ү'], .cls false [.rng 'Г' 'Г', .rng 'г' 'г'], .cls false [.rng 'Э' 'Э', .rng 'э' 'э'], .cls false [.rng 'Р' 'Р', .rng 'р' 'р']], .seqs [.number, .lit [' '], .cls false [.rng 'Ы' 'Ы', .rng 'ы' 'ы'], .cls false [.rng 'И' 'И', .rng 'и' 'и'], .lit [' '], .cls false [.rng 'Ы' 'Ы', .rng 'ы' 'ы'], .cls false [.rng 'Н' 'Н', .rng 'н' 'н'], .cls false [.rng 'А' 'А', .rng 'а' 'а'], .cls false [.rng 'Р' 'Р', .rng 'р' 'р'], .cls false [.rng 'А' 'А', .rng 'а' 'а'], .cls false [.rng 'А' 'А', .rng 'а' 'а'], .lit [' '], .cls false [.rng 'Ө' 'Ө', .rng 'ө' 'ө'], .cls false [.rng 'Т' 'Т', .rng 'т' 'т', .rng 'ᲄ' 'ᲄ', .rng 'ᲅ' 'ᲅ'], .cls false [.rng 'Т' 'Т', .rng 'т' 'т', .rng 'ᲄ' 'ᲄ', .rng 'ᲅ' 'ᲅ'], .cls false [.rng 'Ү' 'Ү', .rng 'ү' 'ү'], .cls false [.rng 'Г' 'Г', .rng 'г' 'г'], .cls false [.rng 'Э' 'Э', .rng 'э' 'э'], .cls false [.rng 'Р' 'Р', .rng 'р' 'р']], .seqs [.number, .lit [' '], .cls false [.rng 'С' 'С', .rng 'с' 'с', .rng 'ᲃ' 'ᲃ'], .cls false [.rng 'Ө' 'Ө', .rng 'ө' 'ө'], .cls false [.rng 'К' 'К', .rng 'к' 'к'], .cls false [.rng 'Ү' 'Ү', .rng 'ү' 'ү'], .cls false [.rng 'Ү' 'Ү', .rng 'ү' 'ү'], .cls false [.rng 'Н' 'Н', .rng 'н' 'н'], .cls false [.rng 'Д' 'Д', .rng 'д' 'д', .rng 'ᲁ' 'ᲁ'], .cls false [.rng 'Э' 'Э', .rng 'э' 'э'], .cls false [.rng 'Н' 'Н', .rng 'н' 'н'], .cls false [.rng 'Н' 'Н', .rng 'н' 'н'], .cls false [.rng 'Э' 'Э', .rng 'э' 'э'], .cls false [.rng 'Н' 'Н', .rng 'н' 'н']], .seqs [.number, .lit [' '], .cls false [.rng 'М' 'М', .rng 'м' 'м'], .cls false [.rng 'Ү' 'Ү', .rng 'ү' 'ү'], .cls false [.rng 'Н' 'Н', .rng 'н' 'н'], .cls false [.rng 'Ү' 'Ү', .rng 'ү' 'ү'], .cls false [.rng 'Ү' 'Ү', .rng 'ү' 'ү'], .cls false [.rng 'Т' 'Т', .rng 'т' 'т', .rng 'ᲄ' 'ᲄ', .rng 'ᲅ' 'ᲅ'], .cls false [.rng 'Э' 'Э', .rng 'э' 'э'], .cls false [.rng 'Н' 'Н', .rng 'н' 'н'], .cls false [.rng 'Н' 'Н', .rng 'н' 'н'], .cls false [.rng 'Э' 'Э', .rng 'э' 'э'], .cls false [.rng 'Н' 'Н', .rng 'н' 'н']], .seqs [.number, .lit [' '], .cls false [.rng 'Н' 'Н', .rng 'н' 'н'], .cls false [.rng 'Э' 'Э', .rng 'э' 'э'], .cls false [.rng 'Д' 'Д', .rng 'д' 'д', .rng 'ᲁ' 'ᲁ'], .cls false [.rng 'И' 'И', .rng 'и' 'и'], .cls false [.rng 'Э' 'Э', .rng 'э' 'э'], .cls false [.rng 'Л' 'Л', .rng 'л' 'л'], .cls false [.rng 'Э' 'Э', .rng 'э' 'э'], .cls false [.rng 'Н' 'Н', .rng 'н' 'н'], .cls false [.rng 'Н' 'Н', .rng 'н' 'н'], .cls false [.rng 'Э' 'Э', .rng 'э' 'э'], .cls false [.rng 'Н' 'Н', .rng 'н' 'н']], .seqs [.number, .lit [' '], .cls false [.rng 'Ч' 'Ч', .rng 'ч' 'ч'], .cls false [.rng 'А' 'А', .rng 'а' 'а'], .cls false [.rng 'А' 'А', .rng 'а' 'а'], .cls false [.rng 'Һ' 'Һ', .rng 'һ' 'һ'], .cls false [.rng 'Ы' 'Ы', .rng 'ы' 'ы'], .cls false [.rng 'Н' 'Н', .rng 'н' 'н'], .cls false [.rng 'А' 'А', .rng 'а' 'а'], .cls false [.rng 'Н' 'Н', .rng 'н' 'н']], .seqs [.number, .lit [' '], .cls false [.rng 'К' 'К', .rng 'к' 'к'], .cls false [.rng 'Ү' 'Ү', .rng 'ү' 'ү'], .cls false [.rng 'Н' 'Н', .rng 'н' 'н'], .cls false [.rng 'Ү' 'Ү', .rng 'ү' 'ү'], .cls false [.rng 'Н' 'Н', .rng 'н' 'н'], .cls false [.rng 'Э' 'Э', .rng 'э' 'э'], .cls false [.rng 'Н' 'Н', .rng 'н' 'н']], .seqs [.number, .lit [' '], .cls false [.rng 'С' 'С', .rng 'с' 'с', .rng 'ᲃ' 'ᲃ'], .cls false [.rng 'Ы' 'Ы', .rng 'ы' 'ы'], .cls false [.rng 'Л' 'Л', .rng 'л' 'л'], .cls false [.rng 'Ы' 'Ы', .rng 'ы' 'ы'], .cls false [.rng 'Н' 'Н', .rng 'н' 'н'], .cls false [.rng 'А' 'А', .rng 'а' 'а'], .cls false [.rng 'Н' 'Н', .rng 'н' 'н']], .seqs [.number, .lit [' '], .cls false [.rng 'Ы' 'Ы', .rng 'ы' 'ы'], .cls false [.rng 'И' 'И', .rng 'и' 'и'], .cls false [.rng 'Ы' 'Ы', .rng 'ы' 'ы'], .cls false [.rng 'Н' 'Н', .rng 'н' 'н'], .cls false [.rng 'А' 'А', .rng 'а' 'а'], .cls false [.rng 'Н' 'Н', .rng 'н' 'н']]]), .eos]),
  knownWords :=
   [['а', 'а', 'с', 'п', 'ы', 'т', ' ', 'н', 'э', 'д', 'и', 'э', 'л', 'э'], ['а', 'т', 'ы', 'р', 'д', 'ь', 'ы', 'х', ' ', 'ы', 'и', 'ы', 'н'], ['к', 'э', 'л', 'э', 'р', ' ', 'н', 'э', 'д', 'и', 'э', 'л', 'э'], ['а', 'т', 'ы', 'р', 'д', 'ь', 'ы', 'х', ' ', 'ы', 'и', 'а'], ['б', 'а', 'л', 'а', 'ҕ', 'а', 'н', ' ', 'ы', 'и', 'ы', 'н'], ['б', 'а', 'с', 'к', 'ы', 'һ', 'ы', 'а', 'н', 'н', 'ь', 'а'], ['б', 'э', 'н', 'и', 'д', 'и', 'э', 'н', 'н', 'ь', 'и', 'к'], ['о', 'п', 'т', 'у', 'о', 'р', 'у', 'н', 'н', 'ь', 'у', 'к'], ['t', 'h', 'i', 's', ' ', 'm', 'i', 'n', 'u', 't', 'e'], ['а', 'н', 'ы', 'г', 'ы', 'с', 'к', 'ы', ' ', 'ы', 'и'], ['б', 'а', 'л', 'а', 'ҕ', 'а', 'н', ' ', 'ы', 'и', 'а'], ['к', 'у', 'л', 'у', 'н', ' ', 'т', 'у', 'т', 'а', 'р'], ['б', 'у', ' ', 'н', 'э', 'д', 'и', 'э', 'л', 'э'], ['м', 'у', 'у', 'с', ' ', 'у', 'с', 'т', 'а', 'р'], ['t', 'h', 'i', 's', ' ', 'h', 'o', 'u', 'r'], ['а', 'а', 'с', 'п', 'ы', 'т', ' ', 'ы', 'и'], ['т', 'о', 'х', 'с', 'у', 'н', 'н', 'ь', 'у'], ['а', 'л', 'т', 'ы', 'н', 'н', 'ь', 'ы'], ['а', 'х', 'с', 'ы', 'н', 'н', 'ь', 'ы'], ['б', 'ы', 'л', 'ы', 'р', 'ы', 'ы', 'н'], ['б', 'э', 'с', ' ', 'ы', 'и', 'ы', 'н'], ['б', 'э', 'э', 'т', 'и', 'ҥ', 'с', 'э'], ['с', 'э', 'т', 'и', 'н', 'н', 'ь', 'и'], ['с', 'ө', 'к', 'ү', 'ү', 'н', 'д', 'э'], ['ы', 'а', 'м', ' ', 'ы', 'и', 'ы', 'н'], ['б', 'и', 'л', 'и', 'г', 'и', 'н'], ['б', 'э', 'с', ' ', 'ы', 'и', 'а'], ['б', 'э', 'ҕ', 'э', 'һ', 'э', 'э'], ['м', 'ү', 'н', 'ү', 'ү', 'т', 'э'], ['н', 'э', 'д', 'и', 'э', 'л', 'э'], ['о', 'л', 'у', 'н', 'н', 'ь', 'у'], ['о', 'т', ' ', 'ы', 'и', 'ы', 'н'], ['с', 'у', 'б', 'у', 'о', 'т', 'а'], ['ч', 'э', 'п', 'п', 'и', 'э', 'р'], ['ы', 'а', 'м', ' ', 'ы', 'и', 'а'], ['о', 'т', ' ', 'ы', 'и', 'а'], ['с', 'а', 'р', 'с', 'ы', 'н'], ['с', 'э', 'р', 'э', 'д', 'э'], ['б', 'у', ' ', 'ы', 'и'], ['б', 'ы', 'и', 'ы', 'л'], ['б', 'ү', 'г', 'ү', 'н'], ['э', 'һ', 'и', 'и', 'л'], ['о', 'л', 'у', 'н'], ['т', 'о', 'х', 'с'], ['ч', 'а', 'а', 'с'], ['g', 'm', 't'], ['u', 't', 'c'], ['а', 'л', 'т'], ['а', 'т', 'р'], ['а', 'х', 'с'], ['б', 'л', 'ҕ'], ['б', 'э', 'с'], ['к', 'л', 'н'], ['к', 'ү', 'н'], ['м', 'с', 'у'], ['о', 'т', 'и'], ['с', 'ы', 'л'], ['с', 'э', 'т'], ['ы', 'а', 'м'], ['a', 'm'], ['p', 'm'], ['б', 'н'], ['б', 'с'], ['б', 'э'], ['о', 'п'], ['с', 'б'], ['с', 'э'], ['ч', 'п'], ['ы', 'и'], ['э', 'и'], ['э', 'к'], [' '], ['\''], ['+'], [','], ['-'], ['.'], ['/'], [':'], [';'], ['@'], ['['], [']'], ['z'], ['|']] }

/-- internal/data/saq.go: `saq_Locale`. -/
def saqLang : LangData := { saqDict with
  knownWords :=
   [['l', 'a', 'p', 'a', ' ', 'l', 'e', ' ', 't', 'o', 'm', 'o', 'n', ' ', 'w', 'a', 'a', 'r', 'e'], ['l', 'a', 'p', 'a', ' ', 'l', 'e', ' ', 't', 'o', 'm', 'o', 'n', ' ', 'o', 'b', 'o'], ['m', 'd', 'e', 'r', 'o', 't', ' ', 'e', 'e', ' ', 'o', 'n', 'g', '\'', 'w', 'a', 'n'], ['l', 'a', 'p', 'a', ' ', 'l', 'e', ' ', 'o', 'n', 'g', '\'', 'w', 'a', 'n'], ['m', 'd', 'e', 'r', 'o', 't', ' ', 'e', 'e', ' ', 'i', 'n', 'e', 't'], ['m', 'd', 'e', 'r', 'o', 't', ' ', 'e', 'e', ' ', 'k', 'u', 'n', 'i'], ['m', 'd', 'e', 'r', 'o', 't', ' ', 'e', 'e', ' ', 's', 'a', 'p', 'a'], ['l', 'a', 'p', 'a', ' ', 'l', 'e', ' ', 'i', 's', 'i', 'e', 't'], ['l', 'a', 'p', 'a', ' ', 'l', 'e', ' ', 'o', 'k', 'u', 'n', 'i'], ['l', 'a', 'p', 'a', ' ', 'l', 'e', ' ', 't', 'o', 'm', 'o', 'n'], ['l', 'a', 'p', 'a', ' ', 'l', 'e', ' ', 'w', 'a', 'a', 'r', 'e'], ['m', 'd', 'e', 'r', 'o', 't', ' ', 'e', 'e', ' ', 'a', 'r', 'e'], ['m', 'd', 'e', 'r', 'o', 't', ' ', 'e', 'e', ' ', 'i', 'l', 'e'], ['m', 'd', 'e', 'r', 'o', 't', ' ', 'e', 'e', ' ', 'k', 'w', 'e'], ['l', 'a', 'p', 'a', ' ', 'l', 'e', ' ', 'i', 'm', 'e', 't'], ['l', 'a', 'p', 'a', ' ', 'l', 'e', ' ', 's', 'a', 'a', 'l'], ['l', 'a', 'p', 'a', ' ', 'l', 'e', ' ', 's', 'a', 'p', 'a'], ['l', 'a', 'p', 'a', ' ', 'l', 'e', ' ', 'i', 'l', 'e'], ['l', 'a', 'p', 'a', ' ', 'l', 'e', ' ', 'o', 'b', 'o'], ['t', 'h', 'i', 's', ' ', 'm', 'i', 'n', 'u', 't', 'e'], ['l', 'a', 's', 't', ' ', 'm', 'o', 'n', 't', 'h'], ['n', 'e', 'x', 't', ' ', 'm', 'o', 'n', 't', 'h'], ['s', 'a', 'i', 'p', 'a', ' ', 'n', 'a', 'p', 'o'], ['t', 'h', 'i', 's', ' ', 'm', 'o', 'n', 't', 'h'], ['l', 'a', 's', 't', ' ', 'w', 'e', 'e', 'k'], ['l', 'a', 's', 't', ' ', 'y', 'e', 'a', 'r'], ['n', 'e', 'x', 't', ' ', 'w', 'e', 'e', 'k'], ['n', 'e', 'x', 't', ' ', 'y', 'e', 'a', 'r'], ['t', 'h', 'i', 's', ' ', 'h', 'o', 'u', 'r'], ['t', 'h', 'i', 's', ' ', 'w', 'e', 'e', 'k'], ['t', 'h', 'i', 's', ' ', 'y', 'e', 'a', 'r'], ['i', 's', 'e', 'k', 'o', 'n', 'd', 'i'], ['i', 'd', 'a', 'k', 'i', 'k', 'a'], ['t', 'a', 'i', 's', 'e', 'r', 'e'], ['t', 'e', 's', 'i', 'r', 'a', 'n'], ['n', 'g', '\'', 'o', 'l', 'e'], ['m', 'p', 'a', 'r', 'i'], ['t', 'e', 'i', 'p', 'a'], ['l', 'a', 'p', 'a'], ['l', 'a', 'r', 'i'], ['s', 'a', 'a', 'i'], ['a', 'r', 'e'], ['d', 'u', 'o'], ['g', 'm', 't'], ['i', 'l', 'e'], ['i', 'm', 'e'], ['i', 'n', 'e'], ['i', 's', 'i'], ['k', 'u', 'n'], ['k', 'w', 'e'], ['n', 'o', 'w'], ['o', 'b', 'o'], ['o', 'k', 'u'], ['o', 'n', 'g'], ['s', 'a', 'a'], ['s', 'a', 'p'], ['t', 'o', 'b'], ['t', 'o', 'm'], ['t', 'o', 'w'], ['u', 't', 'c'], ['w', 'a', 'a'], ['a', 'm'], ['p', 'm'], [' '], ['\''], ['+'], [','], ['-'], ['.'], ['/'], [':'], [';'], ['@'], ['['], [']'], ['z'], ['|']] }

/-- internal/data/sbp.go: `sbp_Locale`. -/
def sbpLang : LangData := { sbpDict with
  knownWords :=
   [['m', 'u', 's', 'h', 'e', 'n', 'd', 'e', ' ', 'm', 'a', 'g', 'a', 'l', 'i'], ['m', 'u', 's', 'o', 'n', 'g', 'a', 'n', 'd', 'e', 'm', 'b', 'w', 'e'], ['m', 'u', 'p', 'a', 'l', 'a', 'n', 'g', 'u', 'l', 'w', 'a'], ['t', 'h', 'i', 's', ' ', 'm', 'i', 'n', 'u', 't', 'e'], ['l', 'a', 's', 't', ' ', 'm', 'o', 'n', 't', 'h'], ['n', 'e', 'x', 't', ' ', 'm', 'o', 'n', 't', 'h'], ['t', 'h', 'i', 's', ' ', 'm', 'o', 'n', 't', 'h'], ['a', 'l', 'a', 'h', 'a', 'm', 'i', 's', 'i'], ['i', 'n', 'e', 'n', 'g', '\'', 'u', 'n', 'i'], ['l', 'a', 's', 't', ' ', 'w', 'e', 'e', 'k'], ['l', 'a', 's', 't', ' ', 'y', 'e', 'a', 'r'], ['l', 'w', 'a', 'm', 'i', 'l', 'a', 'w', 'u'], ['m', 'u', 's', 'h', 'i', 'p', 'e', 'p', 'o'], ['n', 'e', 'x', 't', ' ', 'w', 'e', 'e', 'k'], ['n', 'e', 'x', 't', ' ', 'y', 'e', 'a', 'r'], ['p', 'a', 'm', 'u', 'l', 'a', 'a', 'w', 'u'], ['p', 'a', 's', 'h', 'a', 'm', 'i', 'h', 'e'], ['t', 'h', 'i', 's', ' ', 'h', 'o', 'u', 'r'], ['t', 'h', 'i', 's', ' ', 'w', 'e', 'e', 'k'], ['t', 'h', 'i', 's', ' ', 'y', 'e', 'a', 'r'], ['i', 's', 'e', 'k', 'u', 'n', 'd', 'e'], ['j', 'u', 'm', 'a', 'm', 'o', 's', 'i'], ['j', 'u', 'm', 'a', 't', 'a', 'n', 'o'], ['j', 'u', 'm', 'a', 't', 'a', 't', 'u'], ['m', 'u', 'n', 'y', 'e', 'n', 's', 'e'], ['m', 'u', 'p', 'u', 'g', 'u', 't', 'o'], ['m', 'u', 's', 'h', 'e', 'n', 'd', 'e'], ['i', 'd', 'a', 'k', 'i', 'k', 'a'], ['i', 'l', 'i', 'j', 'u', 'm', 'a'], ['i', 'l', 'i', 's', 'a', 'l', 'a'], ['j', 'u', 'm', 'a', 'n', 'n', 'e'], ['m', 'u', 'h', 'a', 'a', 'n', 'o'], ['m', 'u', 'j', 'i', 'm', 'b', 'i'], ['m', 'u', 'l', 'u', 'n', 'g', 'u'], ['m', 'w', 'i', 't', 'o', 'p', 'e'], ['i', 'j', 'u', 'm', 'a', 'a'], ['l', 'u', 's', 'i', 'k', 'u'], ['m', 'w', 'a', 'k', 'h', 'a'], ['i', 'm', 'e', 'h', 'e'], ['m', 'o', 'k', 'h', 'u'], ['m', 'u', 'n', 'y', 'i'], ['m', 'w', 'e', 's', 'i'], ['a', 'l', 'h'], ['g', 'm', 't'], ['i', 'j', 'u'], ['j', 'm', 'o'], ['j', 'n', 'n'], ['j', 't', 'n'], ['j', 't', 't'], ['m', 'a', 'g'], ['m', 'o', 'k'], ['m', 'p', 'g'], ['m', 's', 'h'], ['m', 's', 'p'], ['m', 'u', 'h'], ['m', 'u', 'j'], ['m', 'u', 'l'], ['m', 'u', 'n'], ['m', 'u', 'p'], ['m', 'u', 's'], ['m', 'w', 'i'], ['m', 'y', 'e'], ['n', 'o', 'w'], ['u', 't', 'c'], ['a', 'm'], ['p', 'm'], [' '], ['\''], ['+'], [','], ['-'], ['.'], ['/'], [':'], [';'], ['@'], ['['], [']'], ['z'], ['|']] }

/-- internal/data/se.go: `se_Locale`. -/
def seLang : LangData := { seDict with
  relativeRegexes :=
   [(.seqs [.grp 1 (.number), .lit [' ', 'm', 'a', 'n', 'o', 't', 'b', 'a', 'd', 'j', 'i', ' ', 'm', 'a'], .cls false [.rng 'Ŋ' 'Ŋ', .rng 'ŋ' 'ŋ'], .cls false [.rng 'Ŋ' 'Ŋ', .rng 'ŋ' 'ŋ'], .lit ['i', 'l', 'i', 't']], [.lit ['i', 'n', ' '], .ref 1, .lit [' ', 'm', 'o', 'n', 't', 'h']]),
    (.seqs [.grp 1 (.number), .lit [' ', 'm', 'i', 'n', 'u', 'h', 't', 't', 'a', ' ', 'm', 'a'], .cls false [.rng 'Ŋ' 'Ŋ', .rng 'ŋ' 'ŋ'], .cls false [.rng 'Ŋ' 'Ŋ', .rng 'ŋ' 'ŋ'], .lit ['i', 'l', 'i', 't']], [.lit ['i', 'n', ' '], .ref 1, .lit [' ', 'm', 'i', 'n', 'u', 't', 'e']]),
    (.seqs [.grp 1 (.number), .lit [' ', 's', 'e', 'k', 'u', 'n', 'd', 'd', 'a', ' ', 'm', 'a'], .cls false [.rng 'Ŋ' 'Ŋ', .rng 'ŋ' 'ŋ'], .cls false [.rng 'Ŋ' 'Ŋ', .rng 'ŋ' 'ŋ'], .lit ['i', 'l', 'i', 't']], [.lit ['i', 'n', ' '], .ref 1, .lit [' ', 's', 'e', 'c', 'o', 'n', 'd']]),
    (.seqs [.grp 1 (.number), .lit [' ', 'd', 'i', 'i', 'b', 'm', 'u', 'r', ' ', 'm', 'a'], .cls false [.rng 'Ŋ' 'Ŋ', .rng 'ŋ' 'ŋ'], .cls false [.rng 'Ŋ' 'Ŋ', .rng 'ŋ' 'ŋ'], .lit ['i', 'l', 'i', 't']], [.lit ['i', 'n', ' '], .ref 1, .lit [' ', 'h', 'o', 'u', 'r']]),
    (.seqs [.grp 1 (.number), .lit [' ', 'j', 'a', 'n', 'd', 'o', 'r', 'a', ' ', 'm', 'a'], .cls false [.rng 'Ŋ' 'Ŋ', .rng 'ŋ' 'ŋ'], .cls false [.rng 'Ŋ' 'Ŋ', .rng 'ŋ' 'ŋ'], .lit ['i', 'l', 'i', 't']], [.lit ['i', 'n', ' '], .ref 1, .lit [' ', 'd', 'a', 'y']]),
    (.seqs [.grp 1 (.number), .lit [' ', 'm', 'i', 'n', 'u', 'h', 't', 'a', ' ', 'm', 'a'], .cls false [.rng 'Ŋ' 'Ŋ', .rng 'ŋ' 'ŋ'], .cls false [.rng 'Ŋ' 'Ŋ', .rng 'ŋ' 'ŋ'], .lit ['i', 'l', 'i', 't']], [.lit ['i', 'n', ' '], .ref 1, .lit [' ', 'm', 'i', 'n', 'u', 't', 'e']]),
    (.seqs [.grp 1 (.number), .lit [' ', 's', 'e', 'k', 'u', 'n', 'd', 'a', ' ', 'm', 'a'], .cls false [.rng 'Ŋ' 'Ŋ', .rng 'ŋ' 'ŋ'], .cls false [.rng 'Ŋ' 'Ŋ', .rng 'ŋ' 'ŋ'], .lit ['i', 'l', 'i', 't']], [.lit ['i', 'n', ' '], .ref 1, .lit [' ', 's', 'e', 'c', 'o', 'n', 'd']]),
    (.seqs [.grp 1 (.number), .lit [' ', 'd', 'i', 'i', 'b', 'm', 'u', ' ', 'm', 'a'], .cls false [.rng 'Ŋ' 'Ŋ', .rng 'ŋ' 'ŋ'], .cls false [.rng 'Ŋ' 'Ŋ', .rng 'ŋ' 'ŋ'], .lit ['i', 'l', 'i', 't']], [.lit ['i', 'n', ' '], .ref 1, .lit [' ', 'h', 'o', 'u', 'r']]),
    (.seqs [.grp 1 (.number), .lit [' ', 'j', 'a', 'h', 'k', 'k', 'i', ' ', 'm', 'a'], .cls false [.rng 'Ŋ' 'Ŋ', .rng 'ŋ' 'ŋ'], .cls false [.rng 'Ŋ' 'Ŋ', .rng 'ŋ' 'ŋ'], .lit ['i', 'l', 'i', 't']], [.lit ['i', 'n', ' '], .ref 1, .lit [' ', 'y', 'e', 'a', 'r']]),
    (.seqs [.grp 1 (.number), .lit [' ', 'j', 'a', 'n', 'd', 'o', 'r', ' ', 'm', 'a'], .cls false [.rng 'Ŋ' 'Ŋ', .rng 'ŋ' 'ŋ'], .cls false [.rng 'Ŋ' 'Ŋ', .rng 'ŋ' 'ŋ'], .lit ['i', 'l', 'i', 't']], [.lit ['i', 'n', ' '], .ref 1, .lit [' ', 'd', 'a', 'y']]),
    (.seqs [.grp 1 (.number), .lit [' ', 'm', 'a', 'n', 'o', 't', 'b', 'a', 'd', 'j', 'i', ' ', 'a', 'r', 'a', 't']], [.ref 1, .lit [' ', 'm', 'o', 'n', 't', 'h', ' ', 'a', 'g', 'o']]),
    (.seqs [.grp 1 (.number), .lit [' ', 'v', 'a', 'h', 'k', 'k', 'u', ' ', 'm', 'a'], .cls false [.rng 'Ŋ' 'Ŋ', .rng 'ŋ' 'ŋ'], .cls false [.rng 'Ŋ' 'Ŋ', .rng 'ŋ' 'ŋ'], .lit ['i', 'l', 'i', 't']], [.lit ['i', 'n', ' '], .ref 1, .lit [' ', 'w', 'e', 'e', 'k']]),
    (.seqs [.grp 1 (.number), .lit [' ', 'j', 'a', 'h', 'k', 'i', ' ', 'm', 'a'], .cls false [.rng 'Ŋ' 'Ŋ', .rng 'ŋ' 'ŋ'], .cls false [.rng 'Ŋ' 'Ŋ', .rng 'ŋ' 'ŋ'], .lit ['i', 'l', 'i', 't']], [.lit ['i', 'n', ' '], .ref 1, .lit [' ', 'y', 'e', 'a', 'r']]),
    (.seqs [.grp 1 (.number), .lit [' ', 'v', 'a', 'h', 'k', 'u', ' ', 'm', 'a'], .cls false [.rng 'Ŋ' 'Ŋ', .rng 'ŋ' 'ŋ'], .cls false [.rng 'Ŋ' 'Ŋ', .rng 'ŋ' 'ŋ'], .lit ['i', 'l', 'i', 't']], [.lit ['i', 'n', ' '], .ref 1, .lit [' ', 'w', 'e', 'e', 'k']]),
    (.seqs [.grp 1 (.number), .lit [' ', 'm', 'i', 'n', 'u', 'h', 't', 't', 'a', ' ', 'a', 'r', 'a', 't']], [.ref 1, .lit [' ', 'm', 'i', 'n', 'u', 't', 'e', ' ', 'a', 'g', 'o']]),
    (.seqs [.grp 1 (.number), .lit [' ', 's', 'e', 'k', 'u', 'n', 'd', 'd', 'a', ' ', 'a', 'r', 'a', 't']], [.ref 1, .lit [' ', 's', 'e', 'c', 'o', 'n', 'd', ' ', 'a', 'g', 'o']]),
    (.seqs [.grp 1 (.number), .lit [' ', 'd', 'i', 'i', 'b', 'm', 'u', 'r', ' ', 'a', 'r', 'a', 't']], [.ref 1, .lit [' ', 'h', 'o', 'u', 'r', ' ', 'a', 'g', 'o']]),
    (.seqs [.grp 1 (.number), .lit [' ', 'j', 'a', 'n', 'd', 'o', 'r', 'a', ' ', 'a', 'r', 'a', 't']], [.ref 1, .lit [' ', 'd', 'a', 'y', ' ', 'a', 'g', 'o']]),
    (.seqs [.grp 1 (.number), .lit [' ', 'm', 'i', 'n', 'u', 'h', 't', 'a', ' ', 'a', 'r', 'a', 't']], [.ref 1, .lit [' ', 'm', 'i', 'n', 'u', 't', 'e', ' ', 'a', 'g', 'o']]),
    (.seqs [.grp 1 (.number), .lit [' ', 's', 'e', 'k', 'u', 'n', 'd', 'a', ' ', 'a', 'r', 'a', 't']], [.ref 1, .lit [' ', 's', 'e', 'c', 'o', 'n', 'd', ' ', 'a', 'g', 'o']]),
    (.seqs [.grp 1 (.number), .lit [' ', 'd', 'i', 'i', 'b', 'm', 'u', ' ', 'a', 'r', 'a', 't']], [.ref 1, .lit [' ', 'h', 'o', 'u', 'r', ' ', 'a', 'g', 'o']]),
    (.seqs [.grp 1 (.number), .lit [' ', 'j', 'a', 'h', 'k', 'k', 'i', ' ', 'a', 'r', 'a', 't']], [.ref 1, .lit [' ', 'y', 'e', 'a', 'r', ' ', 'a', 'g', 'o']]),
    (.seqs [.grp 1 (.number), .lit [' ', 'j', 'a', 'n', 'd', 'o', 'r', ' ', 'a', 'r', 'a', 't']], [.ref 1, .lit [' ', 'd', 'a', 'y', ' ', 'a', 'g', 'o']]),
    (.seqs [.grp 1 (.number), .lit [' ', 'v', 'a', 'h', 'k', 'k', 'u', ' ', 'a', 'r', 'a', 't']], [.ref 1, .lit [' ', 'w', 'e', 'e', 'k', ' ', 'a', 'g', 'o']]),
    (.seqs [.grp 1 (.number), .lit [' ', 'j', 'a', 'h', 'k', 'i', ' ', 'a', 'r', 'a', 't']], [.ref 1, .lit [' ', 'y', 'e', 'a', 'r', ' ', 'a', 'g', 'o']]),
    (.seqs [.grp 1 (.number), .lit [' ', 'v', 'a', 'h', 'k', 'u', ' ', 'a', 'r', 'a', 't']], [.ref 1, .lit [' ', 'w', 'e', 'e', 'k', ' ', 'a', 'g', 'o']])],
  rxCombined := some (.seqs [.grp 1 (.alts [.bos, .cls true [.letter, .mark, .digit], .lit ['_']]), .grp 2 (.alts [.seqs [.number, .lit [' ', 'm', 'a', 'n', 'o', 't', 'b', 'a', 'd', 'j', 'i', ' ', 'm', 'a'], .cls false [.rng 'Ŋ' 'Ŋ', .rng 'ŋ' 'ŋ'], .cls false [.rng 'Ŋ' 'Ŋ', .rng 'ŋ' 'ŋ'], .lit ['i', 'l', 'i', 't']], .seqs [.number, .lit [' ', 'm', 'i', 'n', 'u', 'h', 't', 't', 'a', ' ', 'm', 'a'], .cls false [.rng 'Ŋ' 'Ŋ', .rng 'ŋ' 'ŋ'], .cls false [.rng 'Ŋ' 'Ŋ', .rng 'ŋ' 'ŋ'], .lit ['i', 'l', 'i', 't']], .seqs [.number, .lit [' ', 's', 'e', 'k', 'u', 'n', 'd', 'd', 'a', ' ', 'm', 'a'], .cls false [.rng 'Ŋ' 'Ŋ', .rng 'ŋ' 'ŋ'], .cls false [.rng 'Ŋ' 'Ŋ', .rng 'ŋ' 'ŋ'], .lit ['i', 'l', 'i', 't']], .seqs [.number, .lit [' ', 'd', 'i', 'i', 'b', 'm', 'u', 'r', ' ', 'm', 'a'], .cls false [.rng 'Ŋ' 'Ŋ', .rng 'ŋ' 'ŋ'], .cls false [.rng 'Ŋ' 'Ŋ', .rng 'ŋ' 'ŋ'], .lit ['i', 'l', 'i', 't']], .seqs [.number, .lit [' ', 'j', 'a', 'n', 'd', 'o', 'r', 'a', ' ', 'm', 'a'], .cls false [.rng 'Ŋ' 'Ŋ', .rng 'ŋ' 'ŋ'], .cls false [.rng 'Ŋ' 'Ŋ', .rng 'ŋ' 'ŋ'], .lit ['i', 'l', 'i', 't']], .seqs [.number, .lit [' ', 'm', 'i', 'n', 'u', 'h', 't', 'a', ' ', 'm', 'a'], .cls false [.rng 'Ŋ' 'Ŋ', .rng 'ŋ' 'ŋ'], .cls false [.rng 'Ŋ' 'Ŋ', .rng 'ŋ' 'ŋ'], .lit ['i', 'l', 'i', 't']], .seqs [.number, .lit [' ', 's', 'e', 'k', 'u', 'n', 'd', 'a', ' ', 'm', 'a'], .cls false [.rng 'Ŋ' 'Ŋ', .rng 'ŋ' 'ŋ'], .cls false [.rng 'Ŋ' 'Ŋ', .rng 'ŋ' 'ŋ'], .lit ['i', 'l', 'i', 't']], .seqs [.number, .lit [' ', 'd', 'i', 'i', 'b', 'm', 'u', ' ', 'm', 'a'], .cls false [.rng 'Ŋ' 'Ŋ', .rng 'ŋ' 'ŋ'], .cls false [.rng 'Ŋ' 'Ŋ', .rng 'ŋ' 'ŋ'], .lit ['i', 'l', 'i', 't']], .seqs [.number, .lit [' ', 'j', 'a', 'h', 'k', 'k', 'i', ' ', 'm', 'a'], .cls false [.rng 'Ŋ' 'Ŋ', .rng 'ŋ' 'ŋ'], .cls false [.rng 'Ŋ' 'Ŋ', .rng 'ŋ' 'ŋ'], .lit ['i', 'l', 'i', 't']], .seqs [.number, .lit [' ', 'j', 'a', 'n', 'd', 'o', 'r', ' ', 'm', 'a'], .cls false [.rng 'Ŋ' 'Ŋ', .rng 'ŋ' 'ŋ'], .cls false [.rng 'Ŋ' 'Ŋ', .rng 'ŋ' 'ŋ'], .lit ['i', 'l', 'i', 't']], .seqs [.number, .lit [' ', 'm', 'a', 'n', 'o', 't', 'b', 'a', 'd', 'j', 'i', ' ', 'a', 'r', 'a', 't']], .seqs [.number, .lit [' ', 'v', 'a', 'h', 'k', 'k', 'u', ' ', 'm', 'a'], .cls false [.rng 'Ŋ' 'Ŋ', .rng 'ŋ' 'ŋ'], .cls false [.rng 'Ŋ' 'Ŋ', .rng 'ŋ' 'ŋ'], .lit ['i', 'l', 'i', 't']], .seqs [.number, .lit [' ', 'j', 'a', 'h', 'k', 'i', ' ', 'm', 'a'], .cls false [.rng 'Ŋ' 'Ŋ', .rng 'ŋ' 'ŋ'], .cls false [.rng 'Ŋ' 'Ŋ', .rng 'ŋ' 'ŋ'], .lit ['i', 'l', 'i', 't']], .seqs [.number, .lit [' ', 'v', 'a', 'h', 'k', 'u', ' ', 'm', 'a'], .cls false [.rng 'Ŋ' 'Ŋ', .rng 'ŋ' 'ŋ'], .cls false [.rng 'Ŋ' 'Ŋ', .rng 'ŋ' 'ŋ'], .lit ['i', 'l', 'i', 't']], .seqs [.number, .lit [' ', 'm', 'i', 'n', 'u', 'h', 't', 't', 'a', ' ', 'a', 'r', 'a', 't']], .seqs [.number, .lit [' ', 's', 'e', 'k', 'u', 'n', 'd', 'd', 'a', ' ', 'a', 'r', 'a', 't']], .seqs [.number, .lit [' ', 'd', 'i', 'i', 'b', 'm', 'u', 'r', ' ', 'a', 'r', 'a', 't']], .seqs [.number, .lit [' ', 'j', 'a', 'n', 'd', 'o', 'r', 'a', ' ', 'a', 'r', 'a', 't']], .seqs [.number, .lit [' ', 'm', 'i', 'n', 'u', 'h', 't', 'a', ' ', 'a', 'r', 'a', 't']], .seqs [.number, .lit [' ', 's', 'e', 'k', 'u', 'n', 'd', 'a', ' ', 'a', 'r', 'a', 't']], .seqs [.number, .lit [' ', 'd', 'i', 'i', 'b', 'm', 'u', ' ', 'a', 'r', 'a', 't']], .seqs [.number, .lit [' ', 'j', 'a', 'h', 'k', 'k', 'i', ' ', 'a', 'r', 'a', 't']], .seqs [.number, .lit [' ', 'j', 'a', 'n', 'd', 'o', 'r', ' ', 'a', 'r', 'a', 't']], .seqs [.number, .lit [' ', 'v', 'a', 'h', 'k', 'k', 'u', ' ', 'a', 'r', 'a', 't']], .seqs [.number, .lit [' ', 'j', 'a', 'h', 'k', 'i', ' ', 'a', 'r', 'a', 't']], .seqs [.number, .lit [' ', 'v', 'a', 'h', 'k', 'u', ' ', 'a', 'r', 'a', 't']]]), .grp 3 (.alts [.eos, .cls true [.letter, .mark, .digit], .lit ['_']])], 3),
  rxExact := some (.seqs [.bos, .grp 1 (.alts [.seqs [.number, .lit [' ', 'm', 'a', 'n', 'o', 't', 'b', 'a', 'd', 'j', 'i', ' ', 'm', 'a'], .cls false [.rng 'Ŋ' 'Ŋ', .rng 'ŋ' 'ŋ'], .cls false [.rng 'Ŋ' 'Ŋ', .rng 'ŋ' 'ŋ'], .lit ['i', 'l', 'i', 't']], .seqs [.number, .lit [' ', 'm', 'i', 'n', 'u', 'h', 't', 't', 'a', ' ', 'm', 'a'], .cls false [.rng 'Ŋ' 'Ŋ', .rng 'ŋ' 'ŋ'], .cls false [.rng 'Ŋ' 'Ŋ', .rng 'ŋ' 'ŋ'], .lit ['i', 'l', 'i', 't']], .seqs [.number, .lit [' ', 's', 'e', 'k', 'u', 'n', 'd', 'd', 'a', ' ', 'm', 'a'], .cls false [.rng 'Ŋ' 'Ŋ', .rng 'ŋ' 'ŋ'], .cls false [.rng 'Ŋ' 'Ŋ', .rng 'ŋ' 'ŋ'], .lit ['i', 'l', 'i', 't']], .seqs [.number, .lit [' ', 'd', 'i', 'i', 'b', 'm', 'u', 'r', ' ', 'm', 'a'], .cls false [.rng 'Ŋ' 'Ŋ', .rng 'ŋ' 'ŋ'], .cls false [.rng 'Ŋ' 'Ŋ', .rng 'ŋ' 'ŋ'], .lit ['i', 'l', 'i', 't']], .seqs [.number, .lit [' ', 'j', 'a', 'n', 'd', 'o', 'r', 'a', ' ', 'm', 'a'], .cls false [.rng 'Ŋ' 'Ŋ', .rng 'ŋ' 'ŋ'], .cls false [.rng 'Ŋ' 'Ŋ', .rng 'ŋ' 'ŋ'], .lit ['i', 'l', 'i', 't']], .seqs [.number, .lit [' ', 'm', 'i', 'n', 'u', 'h', 't', 'a', ' ', 'm', 'a'], .cls false [.rng 'Ŋ' 'Ŋ', .rng 'ŋ' 'ŋ'], .cls false [.rng 'Ŋ' 'Ŋ', .rng 'ŋ' 'ŋ'], .lit ['i', 'l', 'i', 't']], .seqs [.number, .lit [' ', 's', 'e', 'k', 'u', 'n', 'd', 'a', ' ', 'm', 'a'], .cls false [.rng 'Ŋ' 'Ŋ', .rng 'ŋ' 'ŋ'], .cls false [.rng 'Ŋ' 'Ŋ', .rng 'ŋ' 'ŋ'], .lit ['i', 'l', 'i', 't']], .seqs [.number, .lit [' ', 'd', 'i', 'i', 'b', 'm', 'u', ' ', 'm', 'a'], .cls false [.rng 'Ŋ' 'Ŋ', .rng 'ŋ' 'ŋ'], .cls false [.rng 'Ŋ' 'Ŋ', .rng 'ŋ' 'ŋ'], .lit ['i', 'l', 'i', 't']], .seqs [.number, .lit [' ', 'j', 'a', 'h', 'k', 'k', 'i', ' ', 'm', 'a'], .cls false [.rng 'Ŋ' 'Ŋ', .rng 'ŋ' 'ŋ'], .cls false [.rng 'Ŋ' 'Ŋ', .rng 'ŋ' 'ŋ'], .lit ['i', 'l', 'i', 't']], .seqs [.number, .lit [' ', 'j', 'a', 'n', 'd', 'o', 'r', ' ', 'm', 'a'], .cls false [.rng 'Ŋ' 'Ŋ', .rng 'ŋ' 'ŋ'], .cls false [.rng 'Ŋ' 'Ŋ', .rng 'ŋ' 'ŋ'], .lit ['i', 'l', 'i', 't']], .seqs [.number, .lit [' ', 'm', 'a', 'n', 'o', 't', 'b', 'a', 'd', 'j', 'i', ' ', 'a', 'r', 'a', 't']], .seqs [.number, .lit [' ', 'v', 'a', 'h', 'k', 'k', 'u', ' ', 'm', 'a'], .cls false [.rng 'Ŋ' 'Ŋ', .rng 'ŋ' 'ŋ'], .cls false [.rng 'Ŋ' 'Ŋ', .rng 'ŋ' 'ŋ'], .lit ['i', 'l', 'i', 't']], .seqs [.number, .lit [' ', 'j', 'a', 'h', 'k', 'i', ' ', 'm', 'a'], .cls false [.rng 'Ŋ' 'Ŋ', .rng 'ŋ' 'ŋ'], .cls false [.rng 'Ŋ' 'Ŋ', .rng 'ŋ' 'ŋ'], .lit ['i', 'l', 'i', 't']], .seqs [.number, .lit [' ', 'v', 'a', 'h', 'k', 'u', ' ', 'm', 'a'], .cls false [.rng 'Ŋ' 'Ŋ', .rng 'ŋ' 'ŋ'], .cls false [.rng 'Ŋ' 'Ŋ', .rng 'ŋ' 'ŋ'], .lit ['i', 'l', 'i', 't']], .seqs [.number, .lit [' ', 'm', 'i', 'n', 'u', 'h', 't', 't', 'a', ' ', 'a', 'r', 'a', 't']], .seqs [.number, .lit [' ', 's', 'e', 'k', 'u', 'n', 'd', 'd', 'a', ' ', 'a', 'r', 'a', 't']], .seqs [.number, .lit [' ', 'd', 'i', 'i', 'b', 'm', 'u', 'r', ' ', 'a', 'r', 'a', 't']], .seqs [.number, .lit [' ', 'j', 'a', 'n', 'd', 'o', 'r', 'a', ' ', 'a', 'r', 'a', 't']], .seqs [.number, .lit [' ', 'm', 'i', 'n', 'u', 'h', 't', 'a', ' ', 'a', 'r', 'a', 't']], .seqs [.number, .lit [' ', 's', 'e', 'k', 'u', 'n', 'd', 'a', ' ', 'a', 'r', 'a', 't']], .seqs [.number, .lit [' ', 'd', 'i', 'i', 'b', 'm', 'u', ' ', 'a', 'r', 'a', 't']], .seqs [.number, .lit [' ', 'j', 'a', 'h', 'k', 'k', 'i', ' ', 'a', 'r', 'a', 't']], .seqs [.number, .lit [' ', 'j', 'a', 'n', 'd', 'o', 'r', ' ', 'a', 'r', 'a', 't']], .seqs [.number, .lit [' ', 'v', 'a', 'h', 'k', 'k', 'u', ' ', 'a', 'r', 'a', 't']], .seqs [.number, .lit [' ', 'j', 'a', 'h', 'k', 'i', ' ', 'a', 'r', 'a', 't']], .seqs [.number, .lit [' ', 'v', 'a', 'h', 'k', 'u', ' ', 'a', 'r', 'a', 't']]]), .eos]),
  knownWords :=
   [['e', 'a', 'h', 'k', 'e', 't', 'b', 'e', 'a', 'i', 'v', 'e', 't'], ['o', 'đ', 'đ', 'a', 'j', 'a', 'g', 'e', 'm', 'a', 'n', 'n', 'u'], ['e', 'a', 'h', 'k', 'e', 't', 'b', 'e', 'a', 'i', 'v', 'i'], ['g', 'o', 'l', 'g', 'g', 'o', 't', 'm', 'a', 'n', 'n', 'u'], ['s', 'u', 'o', 'i', 'd', 'n', 'e', 'm', 'a', 'n', 'n', 'u'], ['g', 'a', 's', 'k', 'a', 'v', 'a', 'h', 'k', 'k', 'u'], ['g', 'e', 'a', 's', 's', 'e', 'm', 'a', 'n', 'n', 'u'], ['g', 'u', 'o', 'v', 'v', 'a', 'm', 'a', 'n', 'n', 'u'], ['i', 'đ', 'i', 't', 'b', 'e', 'a', 'i', 'v', 'e', 't'], ['j', 'u', 'o', 'v', 'l', 'a', 'm', 'a', 'n', 'n', 'u'], ['m', 'i', 'e', 's', 's', 'e', 'm', 'a', 'n', 'n', 'u'], ['n', 'j', 'u', 'k', 'c', 'a', 'm', 'a', 'n', 'n', 'u'], ['s', 'k', 'a', 'b', 'm', 'a', 'm', 'a', 'n', 'n', 'u'], ['s', 'o', 't', 'n', 'a', 'b', 'e', 'a', 'i', 'v', 'i'], ['t', 'h', 'i', 's', ' ', 'm', 'i', 'n', 'u', 't', 'e'], ['b', 'o', 'r', 'g', 'e', 'm', 'a', 'n', 'n', 'u'], ['c', 'a', 'k', 'c', 'a', 'm', 'a', 'n', 'n', 'u'], ['c', 'u', 'o', 'ŋ', 'o', 'm', 'a', 'n', 'n', 'u'], ['i', 'đ', 'i', 't', 'b', 'e', 'a', 'i', 'v', 'i'], ['l', 'a', 's', 't', ' ', 'm', 'o', 'n', 't', 'h'], ['m', 'a', 'ŋ', 'ŋ', 'e', 'b', 'a', 'r', 'g', 'a'], ['n', 'e', 'x', 't', ' ', 'm', 'o', 'n', 't', 'h'], ['t', 'h', 'i', 's', ' ', 'm', 'o', 'n', 't', 'h'], ['b', 'e', 'a', 'r', 'j', 'a', 'd', 'a', 't'], ['d', 'u', 'o', 'r', 'a', 's', 'd', 'a', 't'], ['l', 'a', 's', 't', ' ', 'w', 'e', 'e', 'k'], ['l', 'a', 's', 't', ' ', 'y', 'e', 'a', 'r'], ['l', 'a', 'v', 'v', 'a', 'r', 'd', 'a', 't'], ['n', 'e', 'x', 't', ' ', 'w', 'e', 'e', 'k'], ['n', 'e', 'x', 't', ' ', 'y', 'e', 'a', 'r'], ['t', 'h', 'i', 's', ' ', 'h', 'o', 'u', 'r'], ['t', 'h', 'i', 's', ' ', 'w', 'e', 'e', 'k'], ['t', 'h', 'i', 's', ' ', 'y', 'e', 'a', 'r'], ['v', 'u', 'o', 's', 's', 'a', 'r', 'g', 'a'], ['m', 'i', 'n', 'u', 'h', 't', 't', 'a'], ['s', 'e', 'k', 'u', 'n', 'd', 'a'], ['b', 'e', 'a', 'i', 'v', 'i'], ['d', 'i', 'i', 'b', 'm', 'u'], ['i', 'h', 't', 't', 'i', 'n'], ['v', 'a', 'h', 'k', 'k', 'u'], ['j', 'a', 'h', 'k', 'i'], ['m', 'a', 'n', 'n', 'u'], ['b', 'e', 'a', 'r'], ['b', 'o', 'r', 'g'], ['c', 'a', 'k', 'c'], ['d', 'u', 'o', 'r'], ['g', 'a', 's', 'k'], ['g', 'e', 'a', 's'], ['g', 'o', 'l', 'g'], ['g', 'u', 'o', 'v'], ['i', 'k', 't', 'e'], ['j', 'u', 'o', 'v'], ['m', 'i', 'e', 's'], ['n', 'j', 'u', 'k'], ['o', 'd', 'n', 'e'], ['o', 'đ', 'đ', 'j'], ['s', 'k', 'a', 'b'], ['s', 'o', 't', 'n'], ['s', 'u', 'o', 'i'], ['v', 'u', 'o', 's'], ['c', 'u', 'o'], ['g', 'm', 't'], ['l', 'a', 'v'], ['m', 'a', 'ŋ'], ['n', 'o', 'w'], ['u', 't', 'c'], ['a', 'm'], ['e', 'b'], ['i', 'b'], ['p', 'm'], [' '], ['\''], ['+'], [','], ['-'], ['.'], ['/'], [':'], [';'], ['@'], ['['], [']'], ['z'], ['|']] }

/-- internal/data/se.go: `se_FI_Locale`. -/
def se_FILang : LangData := { se_FIDict with
  relativeRegexes :=
   [(.seqs [.grp 1 (.number), .lit [' ', 'j', 'a', 'g', 'i', ' ', 's', 'i', 's', 't', 'e']], [.lit ['i', 'n', ' '], .ref 1, .lit [' ', 'y', 'e', 'a', 'r']]),
    (.seqs [.grp 1 (.number), .lit [' ', 'j', 'a', 'g', 'i', ' ', 'a', 'r', 'a', 't']], [.ref 1, .lit [' ', 'y', 'e', 'a', 'r', ' ', 'a', 'g', 'o']])],
  rxCombined := some (.seqs [.grp 1 (.alts [.bos, .cls true [.letter, .mark, .digit], .lit ['_']]), .grp 2 (.alts [.seqs [.number, .lit [' ', 'm', 'a', 'n', 'o', 't', 'b', 'a', 'd', 'j', 'i', ' ', 'm', 'a'], .cls false [.rng 'Ŋ' 'Ŋ', .rng 'ŋ' 'ŋ'], .cls false [.rng 'Ŋ' 'Ŋ', .rng 'ŋ' 'ŋ'], .lit ['i', 'l', 'i', 't']], .seqs [.number, .lit [' ', 'm', 'i', 'n', 'u', 'h', 't', 't', 'a', ' ', 'm', 'a'], .cls false [.rng 'Ŋ' 'Ŋ', .rng 'ŋ' 'ŋ'], .cls false [.rng 'Ŋ' 'Ŋ', .rng 'ŋ' 'ŋ'], .lit ['i', 'l', 'i', 't']], .seqs [.number, .lit [' ', 's', 'e', 'k', 'u', 'n', 'd', 'd', 'a', ' ', 'm', 'a'], .cls false [.rng 'Ŋ' 'Ŋ', .rng 'ŋ' 'ŋ'], .cls false [.rng 'Ŋ' 'Ŋ', .rng 'ŋ' 'ŋ'], .lit ['i', 'l', 'i', 't']], .seqs [.number, .lit [' ', 'd', 'i', 'i', 'b', 'm', 'u', 'r', ' ', 'm', 'a'], .cls false [.rng 'Ŋ' 'Ŋ', .rng 'ŋ' 'ŋ'], .cls false [.rng 'Ŋ' 'Ŋ', .rng 'ŋ' 'ŋ'], .lit ['i', 'l', 'i', 't']], .seqs [.number, .lit [' ', 'j', 'a', 'n', 'd', 'o', 'r', 'a', ' ', 'm', 'a'], .cls false [.rng 'Ŋ' 'Ŋ', .rng 'ŋ' 'ŋ'], .cls false [.rng 'Ŋ' 'Ŋ', .rng 'ŋ' 'ŋ'], .lit ['i', 'l', 'i', 't']], .seqs [.number, .lit [' ', 'm', 'i', 'n', 'u', 'h', 't', 'a', ' ', 'm', 'a'], .cls false [.rng 'Ŋ' 'Ŋ', .rng 'ŋ' 'ŋ'], .cls false [.rng 'Ŋ' 'Ŋ', .rng 'ŋ' 'ŋ'], .lit ['i', 'l', 'i', 't']], .seqs [.number, .lit [' ', 's', 'e', 'k', 'u', 'n', 'd', 'a', ' ', 'm', 'a'], .cls false [.rng 'Ŋ' 'Ŋ', .rng 'ŋ' 'ŋ'], .cls false [.rng 'Ŋ' 'Ŋ', .rng 'ŋ' 'ŋ'], .lit ['i', 'l', 'i', 't']], .seqs [.number, .lit [' ', 'd', 'i', 'i', 'b', 'm', 'u', ' ', 'm', 'a'], .cls false [.rng 'Ŋ' 'Ŋ', .rng 'ŋ' 'ŋ'], .cls false [.rng 'Ŋ' 'Ŋ', .rng 'ŋ' 'ŋ'], .lit ['i', 'l', 'i', 't']], .seqs [.number, .lit [' ', 'j', 'a', 'h', 'k', 'k', 'i', ' ', 'm', 'a'], .cls false [.rng 'Ŋ' 'Ŋ', .rng 'ŋ' 'ŋ'], .cls false [.rng 'Ŋ' 'Ŋ', .rng 'ŋ' 'ŋ'], .lit ['i', 'l', 'i', 't']], .seqs [.number, .lit [' ', 'j', 'a', 'n', 'd', 'o', 'r', ' ', 'm', 'a'], .cls false [.rng 'Ŋ' 'Ŋ', .rng 'ŋ' 'ŋ'], .cls false [.rng 'Ŋ' 'Ŋ', .rng 'ŋ' 'ŋ'], .lit ['i', 'l', 'i', 't']], .seqs [.number, .lit [' ', 'm', 'a', 'n', 'o', 't', 'b', 'a', 'd', 'j', 'i', ' ', 'a', 'r', 'a', 't']], .seqs [.number, .lit [' ', 'v', 'a', 'h', 'k', 'k', 'u', ' ', 'm', 'a'], .cls false [.rng 'Ŋ' 'Ŋ', .rng 'ŋ' 'ŋ'], .cls false [.rng 'Ŋ' 'Ŋ', .rng 'ŋ' 'ŋ'], .lit ['i', 'l', 'i', 't']], .seqs [.number, .lit [' ', 'j', 'a', 'h', 'k', 'i', ' ', 'm', 'a'], .cls false [.rng 'Ŋ' 'Ŋ', .rng 'ŋ' 'ŋ'], .cls false [.rng 'Ŋ' 'Ŋ', .rng 'ŋ' 'ŋ'], .lit ['i', 'l', 'i', 't']], .seqs [.number, .lit [' ', 'v', 'a', 'h', 'k', 'u', ' ', 'm', 'a'], .cls false [.rng 'Ŋ' 'Ŋ', .rng 'ŋ' 'ŋ'], .cls false [.rng 'Ŋ' 'Ŋ', .rng 'ŋ' 'ŋ'], .lit ['i', 'l', 'i', 't']], .seqs [.number, .lit [' ', 'm', 'i', 'n', 'u', 'h', 't', 't', 'a', ' ', 'a', 'r', 'a', 't']], .seqs [.number, .lit [' ', 's', 'e', 'k', 'u', 'n', 'd', 'd', 'a', ' ', 'a', 'r', 'a', 't']], .seqs [.number, .lit [' ', 'd', 'i', 'i', 'b', 'm', 'u', 'r', ' ', 'a', 'r', 'a', 't']], .seqs [.number, .lit [' ', 'j', 'a', 'n', 'd', 'o', 'r', 'a', ' ', 'a', 'r', 'a', 't']], .seqs [.number, .lit [' ', 'm', 'i', 'n', 'u', 'h', 't', 'a', ' ', 'a', 'r', 'a', 't']], .seqs [.number, .lit [' ', 's', 'e', 'k', 'u', 'n', 'd', 'a', ' ', 'a', 'r', 'a', 't']], .seqs [.number, .lit [' ', 'd', 'i', 'i', 'b', 'm', 'u', ' ', 'a', 'r', 'a', 't']], .seqs [.number, .lit [' ', 'j', 'a', 'h', 'k', 'k', 'i', ' ', 'a', 'r', 'a', 't']], .seqs [.number, .lit [' ', 'j', 'a', 'n', 'd', 'o', 'r', ' ', 'a', 'r', 'a', 't']], .seqs [.number, .lit [' ', 'v', 'a', 'h', 'k', 'k', 'u', ' ', 'a', 'r', 'a', 't']], .seqs [.number, .lit [' ', 'j', 'a', 'g', 'i', ' ', 's', 'i', 's', 't', 'e']], .seqs [.number, .lit [' ', 'j', 'a', 'h', 'k', 'i', ' ', 'a', 'r', 'a', 't']], .seqs [.number, .lit [' ', 'v', 'a', 'h', 'k', 'u', ' ', 'a', 'r', 'a', 't']], .seqs [.number, .lit [' ', 'j', 'a', 'g', 'i', ' ', 'a', 'r', 'a', 't']]]), .grp 3 (.alts [.eos, .cls true [.letter, .mark, .digit], .lit ['_']])], 3),
  rxExact := some (.seqs [.bos, .grp 1 (.alts [.seqs [.number, .lit [' ', 'm', 'a', 'n', 'o', 't', 'b', 'a', 'd', 'j', 'i', ' ', 'm', 'a'], .cls false [.rng 'Ŋ' 'Ŋ', .rng 'ŋ' 'ŋ'], .cls false [.rng 'Ŋ' 'Ŋ', .rng 'ŋ' 'ŋ'], .lit ['i', 'l', 'i', 't']], .seqs [.number, .lit [' ', 'm', 'i', 'n', 'u', 'h', 't', 't', 'a', ' ', 'm', 'a'], .cls false [.rng 'Ŋ' 'Ŋ', .rng 'ŋ' 'ŋ'], .cls false [.rng 'Ŋ' 'Ŋ', .rng 'ŋ' 'ŋ'], .lit ['i', 'l', 'i', 't']], .seqs [.number, .lit [' ', 's', 'e', 'k', 'u', 'n', 'd', 'd', 'a', ' ', 'm', 'a'], .cls false [.rng 'Ŋ' 'Ŋ', .rng 'ŋ' 'ŋ'], .cls false [.rng 'Ŋ' 'Ŋ', .rng 'ŋ' 'ŋ'], .lit ['i', 'l', 'i', 't']], .seqs [.number, .lit [' ', 'd', 'i', 'i', 'b', 'm', 'u', 'r', ' ', 'm', 'a'], .cls false [.rng 'Ŋ' 'Ŋ', .rng 'ŋ' 'ŋ'], .cls false [.rng 'Ŋ' 'Ŋ', .rng 'ŋ' 'ŋ'], .lit ['i', 'l', 'i', 't']], .seqs [.number, .lit [' ', 'j', 'a', 'n', 'd', 'o', 'r', 'a', ' ', 'm', 'a'], .cls false [.rng 'Ŋ' 'Ŋ', .rng 'ŋ' 'ŋ'], .cls false [.rng 'Ŋ' 'Ŋ', .rng 'ŋ' 'ŋ'], .lit ['i', 'l', 'i', 't']], .seqs [.number, .lit [' ', 'm', 'i', 'n', 'u', 'h', 't', 'a', ' ', 'm', 'a'], .cls false [.rng 'Ŋ' 'Ŋ', .rng 'ŋ' 'ŋ'], .cls false [.rng 'Ŋ' 'Ŋ', .rng 'ŋ' 'ŋ'], .lit ['i', 'l', 'i', 't']], .seqs [.number, .lit [' ', 's', 'e', 'k', 'u', 'n', 'd', 'a', ' ', 'm', 'a'], .cls false [.rng 'Ŋ' 'Ŋ', .rng 'ŋ' 'ŋ'], .cls false [.rng 'Ŋ' 'Ŋ', .rng 'ŋ' 'ŋ'], .lit ['i', 'l', 'i', 't']], .seqs [.number, .lit [' ', 'd', 'i', 'i', 'b', 'm', 'u', ' ', 'm', 'a'], .cls false [.rng 'Ŋ' 'Ŋ', .rng 'ŋ' 'ŋ'], .cls false [.rng 'Ŋ' 'Ŋ', .rng 'ŋ' 'ŋ'], .lit ['i', 'l', 'i', 't']], .seqs [.number, .lit [' ', 'j', 'a', 'h', 'k', 'k', 'i', ' ', 'm', 'a'], .cls false [.rng 'Ŋ' 'Ŋ', .rng 'ŋ' 'ŋ'], .cls false [.rng 'Ŋ' 'Ŋ', .rng 'ŋ' 'ŋ'], .lit ['i', 'l', 'i', 't']], .seqs [.number, .lit [' ', 'j', 'a', 'n', 'd', 'o', 'r', ' ', 'm', 'a'], .cls false [.rng 'Ŋ' 'Ŋ', .rng 'ŋ' 'ŋ'], .cls false [.rng 'Ŋ' 'Ŋ', .rng 'ŋ' 'ŋ'], .lit ['i', 'l', 'i', 't']], .seqs [.number, .lit [' ', 'm', 'a', 'n', 'o', 't', 'b', 'a', 'd', 'j', 'i', ' ', 'a', 'r', 'a', 't']], .seqs [.number, .lit [' ', 'v', 'a', 'h', 'k', 'k', 'u', ' ', 'm', 'a'], .cls false [.rng 'Ŋ' 'Ŋ', .rng 'ŋ' 'ŋ'], .cls false [.rng 'Ŋ' 'Ŋ', .rng 'ŋ' 'ŋ'], .lit ['i', 'l', 'i', 't']], .seqs [.number, .lit [' ', 'j', 'a', 'h', 'k', 'i', ' ', 'm', 'a'], .cls false [.rng 'Ŋ' 'Ŋ', .rng 'ŋ' 'ŋ'], .cls false [.rng 'Ŋ' 'Ŋ', .rng 'ŋ' 'ŋ'], .lit ['i', 'l', 'i', 't']], .seqs [.number, .lit [' ', 'v', 'a', 'h', 'k', 'u', ' ', 'm', 'a'], .cls false [.rng 'Ŋ' 'Ŋ', .rng 'ŋ' 'ŋ'], .cls false [.rng 'Ŋ' 'Ŋ', .rng 'ŋ' 'ŋ'], .lit ['i', 'l', 'i', 't']], .seqs [.number, .lit [' ', 'm', 'i', 'n', 'u', 'h', 't', 't', 'a', ' ', 'a', 'r', 'a', 't']], .seqs [.number, .lit [' ', 's', 'e', 'k', 'u', 'n', 'd', 'd', 'a', ' ', 'a', 'r', 'a', 't']], .seqs [.number, .lit [' ', 'd', 'i', 'i', 'b', 'm', 'u', 'r', ' ', 'a', 'r', 'a', 't']], .seqs [.number, .lit [' ', 'j', 'a', 'n', 'd', 'o', 'r', 'a', ' ', 'a', 'r', 'a', 't']], .seqs [.number, .lit [' ', 'm', 'i', 'n', 'u', 'h', 't', 'a', ' ', 'a', 'r', 'a', 't']], .seqs [.number, .lit [' ', 's', 'e', 'k', 'u', 'n', 'd', 'a', ' ', 'a', 'r', 'a', 't']], .seqs [.number, .lit [' ', 'd', 'i', 'i', 'b', 'm', 'u', ' ', 'a', 'r', 'a', 't']], .seqs [.number, .lit [' ', 'j', 'a', 'h', 'k', 'k', 'i', ' ', 'a', 'r', 'a', 't']], .seqs [.number, .lit [' ', 'j', 'a', 'n', 'd', 'o', 'r', ' ', 'a', 'r', 'a', 't']], .seqs [.number, .lit [' ', 'v', 'a', 'h', 'k', 'k', 'u', ' ', 'a', 'r', 'a', 't']], .seqs [.number, .lit [' ', 'j', 'a', 'g', 'i', ' ', 's', 'i', 's', 't', 'e']], .seqs [.number, .lit [' ', 'j', 'a', 'h', 'k', 'i', ' ', 'a', 'r', 'a', 't']], .seqs [.number, .lit [' ', 'v', 'a', 'h', 'k', 'u', ' ', 'a', 'r', 'a', 't']], .seqs [.number, .lit [' ', 'j', 'a', 'g', 'i', ' ', 'a', 'r', 'a', 't']]]), .eos]),
  knownWords :=
   [['e', 'a', 'h', 'k', 'e', 't', 'b', 'e', 'a', 'i', 'v', 'e', 't'], ['o', 'đ', 'đ', 'a', 'j', 'a', 'g', 'e', 'm', 'a', 'n', 'n', 'u'], ['b', 'o', 'a', 'h', 't', 't', 'e', ' ', 'j', 'a', 'g', 'i'], ['e', 'a', 'h', 'k', 'e', 't', 'b', 'e', 'a', 'i', 'v', 'i'], ['g', 'o', 'l', 'g', 'g', 'o', 't', 'm', 'a', 'n', 'n', 'u'], ['s', 'u', 'o', 'i', 'd', 'n', 'e', 'm', 'a', 'n', 'n', 'u'], ['g', 'a', 's', 'k', 'a', 'v', 'a', 'h', 'k', 'k', 'u'], ['g', 'e', 'a', 's', 's', 'e', 'm', 'a', 'n', 'n', 'u'], ['g', 'u', 'o', 'v', 'v', 'a', 'm', 'a', 'n', 'n', 'u'], ['i', 'đ', 'i', 't', 'b', 'e', 'a', 'i', 'v', 'e', 't'], ['j', 'u', 'o', 'v', 'l', 'a', 'm', 'a', 'n', 'n', 'u'], ['m', 'a', 'n', 'n', 'a', 'n', ' ', 'j', 'a', 'g', 'i'], ['m', 'a', 'ŋ', 'ŋ', 'e', 'b', 'a', 'r', 'g', 'g', 'a'], ['m', 'i', 'e', 's', 's', 'e', 'm', 'a', 'n', 'n', 'u'], ['n', 'j', 'u', 'k', 'c', 'a', 'm', 'a', 'n', 'n', 'u'], ['s', 'k', 'a', 'b', 'm', 'a', 'm', 'a', 'n', 'n', 'u'], ['s', 'o', 't', 'n', 'a', 'b', 'e', 'a', 'i', 'v', 'i'], ['t', 'h', 'i', 's', ' ', 'm', 'i', 'n', 'u', 't', 'e'], ['b', 'e', 'a', 'r', 'j', 'a', 'd', 'a', 'g', 'a'], ['b', 'o', 'r', 'g', 'e', 'm', 'a', 'n', 'n', 'u'], ['c', 'a', 'k', 'c', 'a', 'm', 'a', 'n', 'n', 'u'], ['c', 'u', 'o', 'ŋ', 'o', 'm', 'a', 'n', 'n', 'u'], ['d', 'u', 'o', 'r', 'a', 's', 't', 'a', 'g', 'a'], ['g', 'a', 's', 'k', 'a', 'v', 'a', 'h', 'k', 'u'], ['i', 'đ', 'i', 't', 'b', 'e', 'a', 'i', 'v', 'i'], ['l', 'a', 's', 't', ' ', 'm', 'o', 'n', 't', 'h'], ['l', 'a', 'v', 'v', 'a', 'r', 'd', 'a', 'g', 'a'], ['m', 'a', 'ŋ', 'ŋ', 'e', 'b', 'a', 'r', 'g', 'a'], ['n', 'e', 'x', 't', ' ', 'm', 'o', 'n', 't', 'h'], ['t', 'h', 'i', 's', ' ', 'm', 'o', 'n', 't', 'h'], ['v', 'u', 'o', 's', 's', 'a', 'r', 'g', 'g', 'a'], ['b', 'e', 'a', 'r', 'j', 'a', 'd', 'a', 't'], ['d', 'u', 'o', 'r', 'a', 's', 'd', 'a', 't'], ['l', 'a', 's', 't', ' ', 'w', 'e', 'e', 'k'], ['l', 'a', 's', 't', ' ', 'y', 'e', 'a', 'r'], ['l', 'a', 'v', 'v', 'a', 'r', 'd', 'a', 't'], ['n', 'e', 'x', 't', ' ', 'w', 'e', 'e', 'k'], ['n', 'e', 'x', 't', ' ', 'y', 'e', 'a', 'r'], ['t', 'h', 'i', 's', ' ', 'h', 'o', 'u', 'r'], ['t', 'h', 'i', 's', ' ', 'w', 'e', 'e', 'k'], ['t', 'h', 'i', 's', ' ', 'y', 'e', 'a', 'r'], ['v', 'u', 'o', 's', 's', 'a', 'r', 'g', 'a'], ['d', 'a', 'n', ' ', 'j', 'a', 'g', 'i'], ['m', 'i', 'n', 'u', 'h', 't', 't', 'a'], ['s', 'e', 'k', 'u', 'n', 'd', 'a'], ['b', 'e', 'a', 'i', 'v', 'i'], ['d', 'i', 'i', 'b', 'm', 'u'], ['i', 'h', 't', 't', 'i', 'n'], ['v', 'a', 'h', 'k', 'k', 'u'], ['j', 'a', 'h', 'k', 'i'], ['m', 'a', 'n', 'n', 'u'], ['b', 'e', 'a', 'r'], ['b', 'o', 'r', 'g'], ['c', 'a', 'k', 'c'], ['d', 'u', 'o', 'r'], ['g', 'a', 's', 'k'], ['g', 'e', 'a', 's'], ['g', 'o', 'l', 'g'], ['g', 'u', 'o', 'v'], ['i', 'k', 't', 'e'], ['j', 'u', 'o', 'v'], ['m', 'i', 'e', 's'], ['n', 'j', 'u', 'k'], ['o', 'd', 'n', 'e'], ['o', 'đ', 'đ', 'j'], ['s', 'k', 'a', 'b'], ['s', 'o', 't', 'n'], ['s', 'u', 'o', 'i'], ['v', 'u', 'o', 's'], ['c', 'u', 'o'], ['g', 'm', 't'], ['l', 'a', 'v'], ['m', 'a', 'ŋ'], ['n', 'o', 'w'], ['u', 't', 'c'], ['a', 'm'], ['e', 'b'], ['i', 'b'], ['p', 'm'], [' '], ['\''], ['+'], [','], ['-'], ['.'], ['/'], [':'], [';'], ['@'], ['['], [']'], ['j'], ['z'], ['|']] }

/-- internal/data/se.go: `se_SE_Locale`. -/
def se_SELang : LangData := se_SEDict

/-- internal/data/seh.go: `seh_Locale`. -/
def sehLang : LangData := { sehDict with
  knownWords :=
   [['t', 'h', 'i', 's', ' ', 'm', 'i', 'n', 'u', 't', 'e'], ['l', 'a', 's', 't', ' ', 'm', 'o', 'n', 't', 'h'], ['n', 'e', 'x', 't', ' ', 'm', 'o', 'n', 't', 'h'], ['t', 'h', 'i', 's', ' ', 'm', 'o', 'n', 't', 'h'], ['l', 'a', 's', 't', ' ', 'w', 'e', 'e', 'k'], ['l', 'a', 's', 't', ' ', 'y', 'e', 'a', 'r'], ['n', 'e', 'x', 't', ' ', 'w', 'e', 'e', 'k'], ['n', 'e', 'x', 't', ' ', 'y', 'e', 'a', 'r'], ['t', 'h', 'i', 's', ' ', 'h', 'o', 'u', 'r'], ['t', 'h', 'i', 's', ' ', 'w', 'e', 'e', 'k'], ['t', 'h', 'i', 's', ' ', 'y', 'e', 'a', 'r'], ['c', 'h', 'i', 's', 'h', 'a', 'n', 'u'], ['d', 'e', 'c', 'e', 'm', 'b', 'r', 'o'], ['f', 'e', 'v', 'r', 'e', 'i', 'r', 'o'], ['m', 'a', 'n', 'g', 'u', 'a', 'n', 'a'], ['n', 'o', 'v', 'e', 'm', 'b', 'r', 'o'], ['s', 'e', 't', 'e', 'm', 'b', 'r', 'o'], ['a', 'u', 'g', 'u', 's', 't', 'o'], ['c', 'h', 'i', 'p', 'i', 'r', 'i'], ['c', 'h', 'i', 'p', 'o', 's', 'i'], ['c', 'h', 'i', 't', 'a', 't', 'u'], ['d', 'i', 'm', 'i', 'n', 'g', 'u'], ['j', 'a', 'n', 'e', 'i', 'r', 'o'], ['s', 'e', 'g', 'u', 'n', 'd', 'o'], ['c', 'h', 'i', 'n', 'a', 'i'], ['m', 'i', 'n', 'u', 't', 'o'], ['n', 't', 's', 'i', 'k', 'u'], ['o', 't', 'u', 'b', 'r', 'o'], ['s', 'a', 'b', 'u', 'd', 'u'], ['a', 'b', 'r', 'i', 'l'], ['c', 'h', 'a', 'k', 'a'], ['j', 'u', 'l', 'h', 'o'], ['j', 'u', 'n', 'h', 'o'], ['m', 'a', 'r', 'c', 'o'], ['m', 'w', 'e', 'z', 'i'], ['h', 'o', 'r', 'a'], ['l', 'e', 'r', 'o'], ['m', 'a', 'i', 'o'], ['w', 'e', 'e', 'k'], ['z', 'u', 'r', 'o'], ['a', 'b', 'r'], ['a', 'u', 'g'], ['d', 'e', 'c'], ['d', 'i', 'm'], ['f', 'e', 'v'], ['g', 'm', 't'], ['j', 'a', 'n'], ['j', 'u', 'l'], ['j', 'u', 'n'], ['m', 'a', 'i'], ['m', 'a', 'r'], ['n', 'a', 'i'], ['n', 'o', 'v'], ['n', 'o', 'w'], ['o', 't', 'u'], ['p', 'i', 'r'], ['p', 'o', 's'], ['s', 'a', 'b'], ['s', 'e', 't'], ['s', 'h', 'a'], ['t', 'a', 't'], ['u', 't', 'c'], ['a', 'm'], ['p', 'm'], [' '], ['\''], ['+'], [','], ['-'], ['.'], ['/'], [':'], [';'], ['@'], ['['], [']'], ['z'], ['|']] }

/-- internal/data/ses.go: `ses_Locale`. -/
def sesLang : LangData := { sesDict with
  knownWords :=
   [['t', 'h', 'i', 's', ' ', 'm', 'i', 'n', 'u', 't', 'e'], ['l', 'a', 's', 't', ' ', 'm', 'o', 'n', 't', 'h'], ['n', 'e', 'x', 't', ' ', 'm', 'o', 'n', 't', 'h'], ['t', 'h', 'i', 's', ' ', 'm', 'o', 'n', 't', 'h'], ['a', 'l', 'h', 'a', 'm', 'i', 'i', 's', 'a'], ['d', 'e', 'e', 's', 'a', 'n', 'b', 'u', 'r'], ['f', 'e', 'e', 'w', 'i', 'r', 'i', 'y', 'e'], ['l', 'a', 's', 't', ' ', 'w', 'e', 'e', 'k'], ['l', 'a', 's', 't', ' ', 'y', 'e', 'a', 'r'], ['n', 'e', 'x', 't', ' ', 'w', 'e', 'e', 'k'], ['n', 'e', 'x', 't', ' ', 'y', 'e', 'a', 'r'], ['n', 'o', 'o', 'w', 'a', 'n', 'b', 'u', 'r'], ['s', 'e', 'k', 't', 'a', 'n', 'b', 'u', 'r'], ['t', 'h', 'i', 's', ' ', 'h', 'o', 'u', 'r'], ['t', 'h', 'i', 's', ' ', 'w', 'e', 'e', 'k'], ['t', 'h', 'i', 's', ' ', 'y', 'e', 'a', 'r'], ['a', 't', 'a', 'l', 'a', 'a', 't', 'a'], ['o', 'k', 't', 'o', 'o', 'b', 'u', 'r'], ['z', 'a', 'n', 'w', 'i', 'y', 'e'], ['a', 'd', 'd', 'u', 'h', 'a'], ['a', 'l', 'a', 'r', 'b', 'a'], ['a', 'l', 'h', 'a', 'd', 'i'], ['a', 'l', 'u', 'u', 'l', 'a'], ['a', 'l', 'z', 'u', 'm', 'a'], ['a', 's', 'i', 'b', 't', 'i'], ['a', 't', 'i', 'n', 'n', 'i'], ['a', 'w', 'i', 'r', 'i', 'l'], ['m', 'i', 'n', 'i', 't', 'i'], ['g', 'u', 'u', 'r', 'u'], ['h', 'a', 'n', 'd', 'u'], ['j', 'i', 'i', 'r', 'i'], ['m', 'a', 'r', 's', 'i'], ['z', 'a', 'a', 'r', 'i'], ['z', 'u', 'w', 'e', 'ŋ'], ['z', 'u', 'y', 'y', 'e'], ['h', 'e', 'b', 'u'], ['m', 'i', 't', 'i'], ['s', 'u', 'b', 'a'], ['a', 'l', 'a'], ['a', 'l', 'h'], ['a', 'l', 'm'], ['a', 'l', 'z'], ['a', 's', 'i'], ['a', 't', 'a'], ['a', 't', 'i'], ['a', 'w', 'i'], ['d', 'e', 'e'], ['f', 'e', 'e'], ['g', 'm', 't'], ['h', 'o', 'o'], ['m', 'a', 'r'], ['n', 'o', 'o'], ['n', 'o', 'w'], ['o', 'k', 't'], ['s', 'e', 'k'], ['u', 't', 'c'], ['z', 'a', 'n'], ['z', 'u', 'w'], ['z', 'u', 'y'], ['a', 'm'], ['b', 'i'], ['m', 'e'], ['p', 'm'], ['u', 't'], [' '], ['\''], ['+'], [','], ['-'], ['.'], ['/'], [':'], [';'], ['@'], ['['], [']'], ['z'], ['|']] }

/-- internal/data/sg.go: `sg_Locale`. -/
def sgLang : LangData := { sgDict with
  knownWords :=
   [['n', 'd', 'u', 'r', 'u', ' ', 'n', 'g', 'b', 'o', 'n', 'g', 'a'], ['n', 'z', 'i', 'n', 'a', ' ', 'n', 'g', 'b', 'o', 'n', 'g', 'a'], ['t', 'h', 'i', 's', ' ', 'm', 'i', 'n', 'u', 't', 'e'], ['b', 'i', 'k', 'u', 'a', '-', 'u', 's', 'i', 'o'], ['l', 'a', 's', 't', ' ', 'm', 'o', 'n', 't', 'h'], ['n', 'e', 'x', 't', ' ', 'm', 'o', 'n', 't', 'h'], ['t', 'h', 'i', 's', ' ', 'm', 'o', 'n', 't', 'h'], ['b', 'i', 'k', 'u', 'a', '-', 'o', 'k', 'o'], ['b', 'i', 'k', 'u', 'a', '-', 'o', 'k', 'u'], ['b', 'i', 'k', 'u', 'a', '-', 'p', 't', 'a'], ['b', 'i', 'k', 'u', 'a', '-', 'u', 's', 'e'], ['f', 'u', 'l', 'u', 'n', 'd', 'i', 'g', 'i'], ['l', 'a', 's', 't', ' ', 'w', 'e', 'e', 'k'], ['l', 'a', 's', 't', ' ', 'y', 'e', 'a', 'r'], ['n', 'a', 'b', 'a', 'n', 'd', 'u', 'r', 'u'], ['n', 'e', 'x', 't', ' ', 'w', 'e', 'e', 'k'], ['n', 'e', 'x', 't', ' ', 'y', 'e', 'a', 'r'], ['t', 'h', 'i', 's', ' ', 'h', 'o', 'u', 'r'], ['t', 'h', 'i', 's', ' ', 'w', 'e', 'e', 'k'], ['t', 'h', 'i', 's', ' ', 'y', 'e', 'a', 'r'], ['k', 'e', 'k', 'e', 'r', 'e', 'k', 'e'], ['n', 'g', 'b', 'e', 'r', 'e', 'r', 'e'], ['k', 'a', 'k', 'a', 'u', 'k', 'a'], ['l', 'a', 'y', 'e', 'n', 'g', 'a'], ['n', 'g', 'b', 'o', 'n', 'g', 'a'], ['b', 'e', 'l', 'a', 'w', 'u'], ['d', 'i', 'm', 'a', 's', 'i'], ['k', 'u', 'k', 'u', 'r', 'u'], ['l', 'a', 'p', 'o', 's', 'o'], ['l', 'e', 'n', 'g', 'u', 'a'], ['m', 'b', 'a', 'n', 'g', 'u'], ['n', 'g', 'u', 'b', 'u', 'e'], ['n', 'y', 'e', 'n', 'y', 'e'], ['f', 'o', 'n', 'd', 'o'], ['m', 'v', 'u', 'k', 'a'], ['b', 'i', 'r', 'i'], ['l', 'a', 's', 'o'], ['b', 'e', 'l'], ['b', 'k', '1'], ['b', 'k', '2'], ['b', 'k', '3'], ['b', 'k', '4'], ['b', 'k', '5'], ['f', 'o', 'n'], ['f', 'u', 'l'], ['g', 'm', 't'], ['k', 'a', 'k'], ['k', 'u', 'k'], ['l', 'a', 'p'], ['l', 'a', 'y'], ['l', 'e', 'n'], ['m', 'b', 'a'], ['m', 'v', 'u'], ['n', 'a', 'b'], ['n', 'g', 'b'], ['n', 'g', 'u'], ['n', 'o', 'w'], ['n', 'y', 'e'], ['n', 'z', 'e'], ['u', 't', 'c'], ['a', 'm'], ['l', 'a'], ['l', 'k'], ['n', 'd'], ['p', 'm'], [' '], ['\''], ['+'], [','], ['-'], ['.'], ['/'], [':'], [';'], ['@'], ['['], [']'], ['z'], ['|']] }

/-- internal/data/shi-latn.go: `shi_Latn_Locale`. -/
def shi_LatnLang : LangData := { shi_LatnDict with
  knownWords :=
   [['t', 'h', 'i', 's', ' ', 'm', 'i', 'n', 'u', 't', 'e'], ['l', 'a', 's', 't', ' ', 'm', 'o', 'n', 't', 'h'], ['n', 'e', 'x', 't', ' ', 'm', 'o', 'n', 't', 'h'], ['t', 'h', 'i', 's', ' ', 'm', 'o', 'n', 't', 'h'], ['l', 'a', 's', 't', ' ', 'w', 'e', 'e', 'k'], ['l', 'a', 's', 't', ' ', 'y', 'e', 'a', 'r'], ['n', 'e', 'x', 't', ' ', 'w', 'e', 'e', 'k'], ['n', 'e', 'x', 't', ' ', 'y', 'e', 'a', 'r'], ['t', 'h', 'i', 's', ' ', 'h', 'o', 'u', 'r'], ['t', 'h', 'i', 's', ' ', 'w', 'e', 'e', 'k'], ['t', 'h', 'i', 's', ' ', 'y', 'e', 'a', 'r'], ['c', 'u', 't', 'a', 'n', 'b', 'i', 'r'], ['d', 'u', 'j', 'a', 'n', 'b', 'i', 'r'], ['n', 'u', 'w', 'a', 'n', 'b', 'i', 'r'], ['t', 'a', 'd', 'g', 'g', 'w', 'a', 't'], ['a', 's', 'g', 'g', 'w', 'a', 's'], ['a', 's', 'i', 'd', 'y', 'a', 's'], ['a', 's', 'i', 'm', 'w', 'a', 's'], ['i', 'm', 'a', 'l', 'a', 's', 's'], ['t', 'a', 's', 'r', 'a', 'g', 't'], ['t', 'u', 's', 'd', 'i', 'd', 't'], ['a', 's', 'a', 'm', 'a', 's'], ['a', 's', 'i', 'n', 'a', 's'], ['i', 'n', 'n', 'a', 'y', 'r'], ['t', 'a', 's', 'i', 'n', 't'], ['t', 'i', 'f', 'a', 'w', 't'], ['y', 'u', 'l', 'y', 'u', 'z'], ['a', 'k', 'r', 'a', 's'], ['a', 'k', 'w', 'a', 's'], ['a', 's', 'k', 'k', 'a'], ['a', 'y', 'n', 'a', 's'], ['a', 'y', 'y', 'u', 'r'], ['b', 'r', 'a', 'y', 'r'], ['i', 'b', 'r', 'i', 'r'], ['i', 'd', 'l', 'l', 'i'], ['k', 't', 'u', 'b', 'r'], ['m', 'a', 'y', 'y', 'u'], ['y', 'u', 'n', 'y', 'u'], ['a', 's', 'i', 'd'], ['a', 's', 'i', 'm'], ['a', 's', 's', 'a'], ['m', 'a', 'r', 's'], ['ɣ', 'u', 'c', 't'], ['a', 'k', 'r'], ['a', 'k', 'w'], ['a', 's', 'a'], ['a', 's', 'i'], ['a', 's', 's'], ['a', 'y', 'n'], ['b', 'r', 'a'], ['c', 'u', 't'], ['d', 'u', 'j'], ['g', 'm', 't'], ['i', 'b', 'r'], ['i', 'n', 'n'], ['k', 't', 'u'], ['m', 'a', 'r'], ['m', 'a', 'y'], ['n', 'o', 'w'], ['n', 'u', 'w'], ['u', 't', 'c'], ['y', 'u', 'l'], ['y', 'u', 'n'], ['ɣ', 'u', 'c'], ['a', 'm'], ['p', 'm'], [' '], ['\''], ['+'], [','], ['-'], ['.'], ['/'], [':'], [';'], ['@'], ['['], [']'], ['z'], ['|']] }

/-- internal/data/shi-tfng.go: `shi_Tfng_Locale`. -/
def shi_TfngLang : LangData := { shi_TfngDict with
  knownWords :=
   [['t', 'h', 'i', 's', ' ', 'm', 'i', 'n', 'u', 't', 'e'], ['l', 'a', 's', 't', ' ', 'm', 'o', 'n', 't', 'h'], ['n', 'e', 'x', 't', ' ', 'm', 'o', 'n', 't', 'h'], ['t', 'h', 'i', 's', ' ', 'm', 'o', 'n', 't', 'h'], ['l', 'a', 's', 't', ' ', 'w', 'e', 'e', 'k'], ['l', 'a', 's', 't', ' ', 'y', 'e', 'a', 'r'], ['n', 'e', 'x', 't', ' ', 'w', 'e', 'e', 'k'], ['n', 'e', 'x', 't', ' ', 'y', 'e', 'a', 'r'], ['t', 'h', 'i', 's', ' ', 'h', 'o', 'u', 'r'], ['t', 'h', 'i', 's', ' ', 'w', 'e', 'e', 'k'], ['t', 'h', 'i', 's', ' ', 'y', 'e', 'a', 'r'], ['ⴷ', 'ⵓ', 'ⵊ', 'ⴰ', 'ⵏ', 'ⴱ', 'ⵉ', 'ⵔ'], ['ⵏ', 'ⵓ', 'ⵡ', 'ⴰ', 'ⵏ', 'ⴱ', 'ⵉ', 'ⵔ'], ['ⵛ', 'ⵓ', 'ⵜ', 'ⴰ', 'ⵏ', 'ⴱ', 'ⵉ', 'ⵔ'], ['ⵜ', 'ⴰ', 'ⴷ', 'ⴳ', 'ⴳ', 'ⵡ', 'ⴰ', 'ⵜ'], ['ⴰ', 'ⵙ', 'ⴳ', 'ⴳ', 'ⵡ', 'ⴰ', 'ⵙ'], ['ⴰ', 'ⵙ', 'ⵉ', 'ⴹ', 'ⵢ', 'ⴰ', 'ⵙ'], ['ⵉ', 'ⵎ', 'ⴰ', 'ⵍ', 'ⴰ', 'ⵙ', 'ⵙ'], ['ⵜ', 'ⴰ', 'ⵙ', 'ⵔ', 'ⴰ', 'ⴳ', 'ⵜ'], ['ⵜ', 'ⵓ', 'ⵙ', 'ⴷ', 'ⵉ', 'ⴷ', 'ⵜ'], ['ⴰ', 'ⵙ', 'ⴰ', 'ⵎ', 'ⴰ', 'ⵙ'], ['ⴰ', 'ⵙ', 'ⵉ', 'ⵏ', 'ⴰ', 'ⵙ'], ['ⵉ', 'ⵏ', 'ⵏ', 'ⴰ', 'ⵢ', 'ⵔ'], ['ⵙ', 'ⵉ', 'ⵎ', 'ⵡ', 'ⴰ', 'ⵙ'], ['ⵜ', 'ⴰ', 'ⵙ', 'ⵉ', 'ⵏ', 'ⵜ'], ['ⵜ', 'ⵉ', 'ⴼ', 'ⴰ', 'ⵡ', 'ⵜ'], ['ⵢ', 'ⵓ', 'ⵍ', 'ⵢ', 'ⵓ', 'ⵣ'], ['ⴰ', 'ⴽ', 'ⵕ', 'ⴰ', 'ⵙ'], ['ⴰ', 'ⴽ', 'ⵡ', 'ⴰ', 'ⵙ'], ['ⴰ', 'ⵙ', 'ⴽ', 'ⴽ', 'ⴰ'], ['ⴰ', 'ⵢ', 'ⵏ', 'ⴰ', 'ⵙ'], ['ⴰ', 'ⵢ', 'ⵢ', 'ⵓ', 'ⵔ'], ['ⴱ', 'ⵕ', 'ⴰ', 'ⵢ', 'ⵕ'], ['ⴽ', 'ⵜ', 'ⵓ', 'ⴱ', 'ⵔ'], ['ⵉ', 'ⴱ', 'ⵔ', 'ⵉ', 'ⵔ'], ['ⵉ', 'ⴹ', 'ⵍ', 'ⵍ', 'ⵉ'], ['ⵎ', 'ⴰ', 'ⵢ', 'ⵢ', 'ⵓ'], ['ⵢ', 'ⵓ', 'ⵏ', 'ⵢ', 'ⵓ'], ['ⴰ', 'ⵙ', 'ⵉ', 'ⴹ'], ['ⴰ', 'ⵙ', 'ⵉ', 'ⵎ'], ['ⴰ', 'ⵙ', 'ⵙ', 'ⴰ'], ['ⵎ', 'ⴰ', 'ⵕ', 'ⵚ'], ['ⵖ', 'ⵓ', 'ⵛ', 'ⵜ'], ['g', 'm', 't'], ['n', 'o', 'w'], ['u', 't', 'c'], ['ⴰ', 'ⴽ', 'ⵕ'], ['ⴰ', 'ⴽ', 'ⵡ'], ['ⴰ', 'ⵙ', 'ⴰ'], ['ⴰ', 'ⵙ', 'ⵉ'], ['ⴰ', 'ⵙ', 'ⵙ'], ['ⴰ', 'ⵢ', 'ⵏ'], ['ⴱ', 'ⵕ', 'ⴰ'], ['ⴷ', 'ⵓ', 'ⵊ'], ['ⴽ', 'ⵜ', 'ⵓ'], ['ⵉ', 'ⴱ', 'ⵔ'], ['ⵉ', 'ⵏ', 'ⵏ'], ['ⵎ', 'ⴰ', 'ⵕ'], ['ⵎ', 'ⴰ', 'ⵢ'], ['ⵏ', 'ⵓ', 'ⵡ'], ['ⵖ', 'ⵓ', 'ⵛ'], ['ⵛ', 'ⵓ', 'ⵜ'], ['ⵢ', 'ⵓ', 'ⵍ'], ['ⵢ', 'ⵓ', 'ⵏ'], ['a', 'm'], ['p', 'm'], [' '], ['\''], ['+'], [','], ['-'], ['.'], ['/'], [':'], [';'], ['@'], ['['], [']'], ['z'], ['|']] }

/-- internal/data/shi.go: `shi_Locale`. -/
def shiLang : LangData := { shiDict with
  knownWords :=
   [['t', 'h', 'i', 's', ' ', 'm', 'i', 'n', 'u', 't', 'e'], ['l', 'a', 's', 't', ' ', 'm', 'o', 'n', 't', 'h'], ['n', 'e', 'x', 't', ' ', 'm', 'o', 'n', 't', 'h'], ['t', 'h', 'i', 's', ' ', 'm', 'o', 'n', 't', 'h'], ['l', 'a', 's', 't', ' ', 'w', 'e', 'e', 'k'], ['l', 'a', 's', 't', ' ', 'y', 'e', 'a', 'r'], ['n', 'e', 'x', 't', ' ', 'w', 'e', 'e', 'k'], ['n', 'e', 'x', 't', ' ', 'y', 'e', 'a', 'r'], ['t', 'h', 'i', 's', ' ', 'h', 'o', 'u', 'r'], ['t', 'h', 'i', 's', ' ', 'w', 'e', 'e', 'k'], ['t', 'h', 'i', 's', ' ', 'y', 'e', 'a', 'r'], ['ⴷ', 'ⵓ', 'ⵊ', 'ⴰ', 'ⵏ', 'ⴱ', 'ⵉ', 'ⵔ'], ['ⵏ', 'ⵓ', 'ⵡ', 'ⴰ', 'ⵏ', 'ⴱ', 'ⵉ', 'ⵔ'], ['ⵛ', 'ⵓ', 'ⵜ', 'ⴰ', 'ⵏ', 'ⴱ', 'ⵉ', 'ⵔ'], ['ⵜ', 'ⴰ', 'ⴷ', 'ⴳ', 'ⴳ', 'ⵡ', 'ⴰ', 'ⵜ'], ['ⴰ', 'ⵙ', 'ⴳ', 'ⴳ', 'ⵡ', 'ⴰ', 'ⵙ'], ['ⴰ', 'ⵙ', 'ⵉ', 'ⴹ', 'ⵢ', 'ⴰ', 'ⵙ'], ['ⵉ', 'ⵎ', 'ⴰ', 'ⵍ', 'ⴰ', 'ⵙ', 'ⵙ'], ['ⵜ', 'ⴰ', 'ⵙ', 'ⵔ', 'ⴰ', 'ⴳ', 'ⵜ'], ['ⵜ', 'ⵓ', 'ⵙ', 'ⴷ', 'ⵉ', 'ⴷ', 'ⵜ'], ['ⴰ', 'ⵙ', 'ⴰ', 'ⵎ', 'ⴰ', 'ⵙ'], ['ⴰ', 'ⵙ', 'ⵉ', 'ⵏ', 'ⴰ', 'ⵙ'], ['ⵉ', 'ⵏ', 'ⵏ', 'ⴰ', 'ⵢ', 'ⵔ'], ['ⵙ', 'ⵉ', 'ⵎ', 'ⵡ', 'ⴰ', 'ⵙ'], ['ⵜ', 'ⴰ', 'ⵙ', 'ⵉ', 'ⵏ', 'ⵜ'], ['ⵜ', 'ⵉ', 'ⴼ', 'ⴰ', 'ⵡ', 'ⵜ'], ['ⵢ', 'ⵓ', 'ⵍ', 'ⵢ', 'ⵓ', 'ⵣ'], ['ⴰ', 'ⴽ', 'ⵕ', 'ⴰ', 'ⵙ'], ['ⴰ', 'ⴽ', 'ⵡ', 'ⴰ', 'ⵙ'], ['ⴰ', 'ⵙ', 'ⴽ', 'ⴽ', 'ⴰ'], ['ⴰ', 'ⵢ', 'ⵏ', 'ⴰ', 'ⵙ'], ['ⴰ', 'ⵢ', 'ⵢ', 'ⵓ', 'ⵔ'], ['ⴱ', 'ⵕ', 'ⴰ', 'ⵢ', 'ⵕ'], ['ⴽ', 'ⵜ', 'ⵓ', 'ⴱ', 'ⵔ'], ['ⵉ', 'ⴱ', 'ⵔ', 'ⵉ', 'ⵔ'], ['ⵉ', 'ⴹ', 'ⵍ', 'ⵍ', 'ⵉ'], ['ⵎ', 'ⴰ', 'ⵢ', 'ⵢ', 'ⵓ'], ['ⵢ', 'ⵓ', 'ⵏ', 'ⵢ', 'ⵓ'], ['ⴰ', 'ⵙ', 'ⵉ', 'ⴹ'], ['ⴰ', 'ⵙ', 'ⵉ', 'ⵎ'], ['ⴰ', 'ⵙ', 'ⵙ', 'ⴰ'], ['ⵎ', 'ⴰ', 'ⵕ', 'ⵚ'], ['ⵖ', 'ⵓ', 'ⵛ', 'ⵜ'], ['g', 'm', 't'], ['n', 'o', 'w'], ['u', 't', 'c'], ['ⴰ', 'ⴽ', 'ⵕ'], ['ⴰ', 'ⴽ', 'ⵡ'], ['ⴰ', 'ⵙ', 'ⴰ'], ['ⴰ', 'ⵙ', 'ⵉ'], ['ⴰ', 'ⵙ', 'ⵙ'], ['ⴰ', 'ⵢ', 'ⵏ'], ['ⴱ', 'ⵕ', 'ⴰ'], ['ⴷ', 'ⵓ', 'ⵊ'], ['ⴽ', 'ⵜ', 'ⵓ'], ['ⵉ', 'ⴱ', 'ⵔ'], ['ⵉ', 'ⵏ', 'ⵏ'], ['ⵎ', 'ⴰ', 'ⵕ'], ['ⵎ', 'ⴰ', 'ⵢ'], ['ⵏ', 'ⵓ', 'ⵡ'], ['ⵖ', 'ⵓ', 'ⵛ'], ['ⵛ', 'ⵓ', 'ⵜ'], ['ⵢ', 'ⵓ', 'ⵍ'], ['ⵢ', 'ⵓ', 'ⵏ'], ['a', 'm'], ['p', 'm'], [' '], ['\''], ['+'], [','], ['-'], ['.'], ['/'], [':'], [';'], ['@'], ['['], [']'], ['z'], ['|']] }

/-- internal/data/si.go: `si_Locale`. -/
def siLang : LangData := { siDict with
  relativeRegexes :=
   [(.seqs [.lit ['ත', 'ත', 'ප', 'ර', ' '], .grp 1 (.number), .lit ['ක', 'ට', ' ', 'ප', 'ෙ', 'ර']], [.ref 1, .lit [' ', 's', 'e', 'c', 'o', 'n', 'd', ' ', 'a', 'g', 'o']]),
    (.seqs [.lit ['ම', 'න', 'ත', 'ත', ' '], .grp 1 (.number), .lit ['ක', 'ට', ' ', 'ප', 'ෙ', 'ර']], [.ref 1, .lit [' ', 'm', 'i', 'n', 'u', 't', 'e', ' ', 'a', 'g', 'o']]),
    (.seqs [.lit ['ප', 'ැ', 'ය', ' '], .grp 1 (.number), .lit ['ක', 'ට', ' ', 'ප', 'ෙ', 'ර']], [.ref 1, .lit [' ', 'h', 'o', 'u', 'r', ' ', 'a', 'g', 'o']]),
    (.seqs [.lit ['ම', 'ා', 'ස', ' '], .grp 1 (.number), .lit ['ක', 'ට', ' ', 'ප', 'ෙ', 'ර']], [.ref 1, .lit [' ', 'm', 'o', 'n', 't', 'h', ' ', 'a', 'g', 'o']]),
    (.seqs [.lit ['ව', 'ස', 'ර', ' '], .grp 1 (.number), .lit ['ක', 'ට', ' ', 'ප', 'ෙ', 'ර']], [.ref 1, .lit [' ', 'y', 'e', 'a', 'r', ' ', 'a', 'g', 'o']]),
    (.seqs [.lit ['ද', 'න', ' '], .grp 1 (.number), .lit ['ක', 'ට', ' ', 'ප', 'ෙ', 'ර']], [.ref 1, .lit [' ', 'd', 'a', 'y', ' ', 'a', 'g', 'o']]),
    (.seqs [.lit ['ස', 'ත', ' '], .grp 1 (.number), .lit ['ක', 'ට', ' ', 'ප', 'ෙ', 'ර']], [.ref 1, .lit [' ', 'w', 'e', 'e', 'k', ' ', 'a', 'g', 'o']]),
    (.seqs [.lit ['ත', 'ත', 'ප', 'ර', ' '], .grp 1 (.number), .lit ['ක', 'න']], [.lit ['i', 'n', ' '], .ref 1, .lit [' ', 's', 'e', 'c', 'o', 'n', 'd']]),
    (.seqs [.lit ['ම', 'න', 'ත', 'ත', ' '], .grp 1 (.number), .lit ['ක', 'න']], [.lit ['i', 'n', ' '], .ref 1, .lit [' ', 'm', 'i', 'n', 'u', 't', 'e']]),
    (.seqs [.lit ['ප', 'ැ', 'ය', ' '], .grp 1 (.number), .lit ['ක', 'න']], [.lit ['i', 'n', ' '], .ref 1, .lit [' ', 'h', 'o', 'u', 'r']]),
    (.seqs [.lit ['ම', 'ා', 'ස', ' '], .grp 1 (.number), .lit ['ක', 'න']], [.lit ['i', 'n', ' '], .ref 1, .lit [' ', 'm', 'o', 'n', 't', 'h']]),
    (.seqs [.lit ['ව', 'ස', 'ර', ' '], .grp 1 (.number), .lit ['ක', 'න']], [.lit ['i', 'n', ' '], .ref 1, .lit [' ', 'y', 'e', 'a', 'r']]),
    (.seqs [.lit ['ස', 'ත', ' '], .grp 1 (.number), .lit ['ක', 'න']], [.lit ['i', 'n', ' '], .ref 1, .lit [' ', 'w', 'e', 'e', 'k']]),
    (.seqs [.lit ['ද', 'න', ' '], .grp 1 (.number), .lit ['න']], [.lit ['i', 'n', ' '], .ref 1, .lit [' ', 'd', 'a', 'y']])],
  rxCombined := some (.seqs [.grp 1 (.alts [.bos, .cls true [.letter, .mark, .digit], .lit ['_']]), .grp 2 (.alts [.seqs [.lit ['ත', 'ත', 'ප', 'ර', ' '], .number, .lit ['ක', 'ට', ' ', 'ප', 'ෙ', 'ර']], .seqs [.lit ['ම', 'න', 'ත', 'ත', ' '], .number, .lit ['ක', 'ට', ' ', 'ප', 'ෙ', 'ර']], .seqs [.lit ['ප', 'ැ', 'ය', ' '], .number, .lit ['ක', 'ට', ' ', 'ප', 'ෙ', 'ර']], .seqs [.lit ['ම', 'ා', 'ස', ' '], .number, .lit ['ක', 'ට', ' ', 'ප', 'ෙ', 'ර']], .seqs [.lit ['ව', 'ස', 'ර', ' '], .number, .lit ['ක', 'ට', ' ', 'ප', 'ෙ', 'ර']], .seqs [.lit ['ද', 'න', ' '], .number, .lit ['ක', 'ට', ' ', 'ප', 'ෙ', 'ර']], .seqs [.lit ['ස', 'ත', ' '], .number, .lit ['ක', 'ට', ' ', 'ප', 'ෙ', 'ර']], .seqs [.lit ['ත', 'ත', 'ප', 'ර', ' '], .number, .lit ['ක', 'න']], .seqs [.lit ['ම', 'න', 'ත', 'ත', ' '], .number, .lit ['ක', 'න']], .seqs [.lit ['ප', 'ැ', 'ය', ' '], .number, .lit ['ක', 'න']], .seqs [.lit ['ම', 'ා', 'ස', ' '], .number, .lit ['ක', 'න']], .seqs [.lit ['ව', 'ස', 'ර', ' '], .number, .lit ['ක', 'න']], .seqs [.lit ['ස', 'ත', ' '], .number, .lit ['ක', 'න']], .seqs [.lit ['ද', 'න', ' '], .number, .lit ['න']]]), .grp 3 (.alts [.eos, .cls true [.letter, .mark, .digit], .lit ['_']])], 3),
  rxExact := some (.seqs [.bos, .grp 1 (.alts [.seqs [.lit ['ත', 'ත', 'ප', 'ර', ' '], .number, .lit ['ක', 'ට', ' ', 'ප', 'ෙ', 'ර']], .seqs [.lit ['ම', 'න', 'ත', 'ත', ' '], .number, .lit ['ක', 'ට', ' ', 'ප', 'ෙ', 'ර']], .seqs [.lit ['ප', 'ැ', 'ය', ' '], .number, .lit ['ක', 'ට', ' ', 'ප', 'ෙ', 'ර']], .seqs [.lit ['ම', 'ා', 'ස', ' '], .number, .lit ['ක', 'ට', ' ', 'ප', 'ෙ', 'ර']], .seqs [.lit ['ව', 'ස', 'ර', ' '], .number, .lit ['ක', 'ට', ' ', 'ප', 'ෙ', 'ර']], .seqs [.lit ['ද', 'න', ' '], .number, .lit ['ක', 'ට', ' ', 'ප', 'ෙ', 'ර']], .seqs [.lit ['ස', 'ත', ' '], .number, .lit ['ක', 'ට', ' ', 'ප', 'ෙ', 'ර']], .seqs [.lit ['ත', 'ත', 'ප', 'ර', ' '], .number, .lit ['ක', 'න']], .seqs [.lit ['ම', 'න', 'ත', 'ත', ' '], .number, .lit ['ක', 'න']], .seqs [.lit ['ප', 'ැ', 'ය', ' '], .number, .lit ['ක', 'න']], .seqs [.lit ['ම', 'ා', 'ස', ' '], .number, .lit ['ක', 'න']], .seqs [.lit ['ව', 'ස', 'ර', ' '], .number, .lit ['ක', 'න']], .seqs [.lit ['ස', 'ත', ' '], .number, .lit ['ක', 'න']], .seqs [.lit ['ද', 'න', ' '], .number, .lit ['න']]]), .eos]),
  knownWords :=
   [['බ', (Char.ofNat 0x200d), 'ර', 'හ', 'ස', 'ප', 'ත', 'න', 'ද', 'ා'], ['ප', 'ස', 'ග', 'ය', ' ', 'ම', 'ා', 'ස', 'ය'], ['ම', 'ෙ', 'ම', ' ', 'ම', 'න', 'ත', 'ත', 'ව'], ['අ', 'ඟ', 'හ', 'ර', 'ව', 'ා', 'ද', 'ා'], ['ඊ', 'ළ', 'ඟ', ' ', 'ම', 'ා', 'ස', 'ය'], ['ප', 'ස', 'ග', 'ය', ' ', 'ම', 'ා', 'ස'], ['ප', 'ස', 'ග', 'ය', ' ', 'ව', 'ස', 'ර'], ['ප', 'ස', 'ග', 'ය', ' ', 'ස', 'ත', 'ය'], ['ම', 'ෙ', 'ම', ' ', 'ම', 'ා', 'ස', 'ය'], ['ස', 'ැ', 'ප', 'ත', 'ැ', 'ම', 'බ', 'ර'], ['ස', 'ෙ', 'න', 'ස', 'ර', 'ා', 'ද', 'ා'], ['ඊ', 'ළ', 'ඟ', ' ', 'ම', 'ා', 'ස'], ['ඊ', 'ළ', 'ඟ', ' ', 'ව', 'ස', 'ර'], ['ඊ', 'ළ', 'ඟ', ' ', 'ස', 'ත', 'ය'], ['ද', 'ෙ', 'ස', 'ැ', 'ම', 'බ', 'ර'], ['න', 'ො', 'ව', 'ැ', 'ම', 'බ', 'ර'], ['ප', 'ස', 'ග', 'ය', ' ', 'ස', 'ත'], ['ප', 'ෙ', 'බ', 'ර', 'ව', 'ා', 'ර'], ['ම', 'ෙ', 'ම', ' ', 'ප', 'ැ', 'ය'], ['ම', 'ෙ', 'ම', ' ', 'ම', 'ා', 'ස'], ['ම', 'ෙ', 'ම', ' ', 'ව', 'ස', 'ර'], ['ම', 'ෙ', 'ම', ' ', 'ස', 'ත', 'ය'], ['අ', 'ප', (Char.ofNat 0x200d), 'ර', 'ෙ', 'ල'], ['ඊ', 'ළ', 'ඟ', ' ', 'ස', 'ත'], ['ඔ', 'ක', 'ත', 'ො', 'බ', 'ර'], ['ම', 'ෙ', 'ම', ' ', 'ස', 'ත'], ['ස', 'ක', 'ර', 'ා', 'ද', 'ා'], ['අ', 'ග', 'ො', 'ස', 'ත'], ['ජ', 'න', 'ව', 'ා', 'ර'], ['ත', 'ත', 'ප', 'ර', 'ය'], ['බ', 'ද', 'ා', 'ද', 'ා'], ['බ', (Char.ofNat 0x200d), 'ර', 'හ', 'ස'], ['ම', 'න', 'ත', 'ත', 'ව'], ['ඉ', 'ර', 'ද', 'ා'], ['ද', 'ෙ', 'ස', 'ැ'], ['න', 'ො', 'ව', 'ැ'], ['ම', 'ා', 'ර', 'ත'], ['ම', 'ා', 'ස', 'ය'], ['ව', 'ර', 'ෂ', 'ය'], ['ස', 'ඳ', 'ද', 'ා'], ['g', 'm', 't'], ['u', 't', 'c'], ['අ', 'ග', 'ො'], ['අ', 'ඟ', 'හ'], ['ඊ', 'ය', 'ෙ'], ['ද', 'න', 'ය'], ['ද', 'ැ', 'න'], ['ප', 'ැ', 'ය'], ['ප', 'ෙ', 'බ'], ['ප', 'ෙ', 'ව'], ['ම', 'ා', 'ර'], ['ම', 'ා', 'ස'], ['ම', 'ැ', 'ය'], ['ස', 'ත', 'ය'], ['ස', 'ැ', 'ප'], ['ස', 'ෙ', 'න'], ['හ', 'ෙ', 'ට'], ['a', 'm'], ['p', 'm'], ['අ', 'ද'], ['ඔ', 'ක'], ['ජ', 'න'], ['ජ', 'ල'], ['ත', 'ත'], ['ප', 'ව'], ['ප', 'ැ'], ['ම', 'න'], ['ව', 'ර'], ['ස', 'ක'], ['ස', 'ත'], [' '], ['\''], ['+'], [','], ['-'], ['.'], ['/'], [':'], [';'], ['@'], ['['], [']'], ['z'], ['|'], ['ත'], ['ම']] }

/-- internal/data/sk.go: `sk_Locale`. -/
def skLang : LangData := { skDict with
  simplifications :=
   [(.seqs [.grp 1 (.alts [.bos, .noWord]), .lit ['p', 'r', 'e', 'd', ' ', 's', 'e', 'k', 'u', 'n', 'd', 'o', 'u'], .grp 2 (.alts [.eos, .noWord])], [.ref 1, .lit ['p', 'r', 'e', 'd', ' ', '1', ' ', 's', 'e', 'k', 'u', 'n', 'd', 'o', 'u'], .ref 2]),
    (.seqs [.grp 1 (.alts [.bos, .noWord]), .lit ['p', 'r', 'e', 'd', ' ', 'm', 'i', 'n', 'u', 't', 'o', 'u'], .grp 2 (.alts [.eos, .noWord])], [.ref 1, .lit ['p', 'r', 'e', 'd', ' ', '1', ' ', 'm', 'i', 'n', 'u', 't', 'o', 'u'], .ref 2]),
    (.seqs [.grp 1 (.alts [.bos, .noWord]), .lit ['p', 'r', 'e', 'd', ' ', 'h', 'o', 'd', 'i', 'n', 'o', 'u'], .grp 2 (.alts [.eos, .noWord])], [.ref 1, .lit ['p', 'r', 'e', 'd', ' ', '1', ' ', 'h', 'o', 'd', 'i', 'n', 'o', 'u'], .ref 2]),
    (.seqs [.grp 1 (.alts [.bos, .noWord]), .lit ['p', 'r', 'e', 'd', ' ', 't', 'y', 'z', 'd', 'n', 'o', 'm'], .grp 2 (.alts [.eos, .noWord])], [.ref 1, .lit ['p', 'r', 'e', 'd', ' ', '1', ' ', 't', 'y', 'z', 'd', 'n', 'o', 'm'], .ref 2]),
    (.seqs [.grp 1 (.alts [.bos, .noWord]), .lit ['p', 'r', 'e', 'd', ' ', 'm', 'e', 's', 'i', 'a', 'c', 'o', 'm'], .grp 2 (.alts [.eos, .noWord])], [.ref 1, .lit ['p', 'r', 'e', 'd', ' ', '1', ' ', 'm', 'e', 's', 'i', 'a', 'c', 'o', 'm'], .ref 2]),
    (.seqs [.grp 1 (.alts [.bos, .noWord]), .lit ['p', 'r', 'e', 'd', ' ', 'r', 'o', 'k', 'o', 'm'], .grp 2 (.alts [.eos, .noWord])], [.ref 1, .lit ['p', 'r', 'e', 'd', ' ', '1', ' ', 'r', 'o', 'k', 'o', 'm'], .ref 2]),
    (.seqs [.grp 1 (.alts [.bos, .noWord]), .lit ['p', 'r', 'e', 'd', ' ', 'p', 'o', 'l', ' ', 'r', 'o', 'k', 'o', 'm'], .grp 2 (.alts [.eos, .noWord])], [.ref 1, .lit ['p', 'r', 'e', 'd', ' ', '6', ' ', 'm', 'e', 's', 'i', 'a', 'c', 'm', 'i'], .ref 2]),
    (.seqs [.grp 1 (.alts [.bos, .noWord]), .lit ['o', ' ', 's', 'e', 'k', 'u', 'n', 'd', 'u'], .grp 2 (.alts [.eos, .noWord])], [.ref 1, .lit ['o', ' ', '1', ' ', 's', 'e', 'k', 'u', 'n', 'd', 'u'], .ref 2]),
    (.seqs [.grp 1 (.alts [.bos, .noWord]), .lit ['o', ' ', 'm', 'i', 'n', 'u', 't', 'u'], .grp 2 (.alts [.eos, .noWord])], [.ref 1, .lit ['o', ' ', '1', ' ', 'm', 'i', 'n', 'u', 't', 'u'], .ref 2]),
    (.seqs [.grp 1 (.alts [.bos, .noWord]), .lit ['o', ' ', 'h', 'o', 'd', 'i', 'n', 'u'], .grp 2 (.alts [.eos, .noWord])], [.ref 1, .lit ['o', ' ', '1', ' ', 'h', 'o', 'd', 'i', 'n', 'u'], .ref 2]),
    (.seqs [.grp 1 (.alts [.bos, .noWord]), .lit ['o', ' ', 't', 'y', 'z', 'd', 'e', 'n'], .grp 2 (.alts [.eos, .noWord])], [.ref 1, .lit ['o', ' ', '1', ' ', 't', 'y', 'z', 'd', 'e', 'n'], .ref 2]),
    (.seqs [.grp 1 (.alts [.bos, .noWord]), .lit ['o', ' ', 'm', 'e', 's', 'i', 'a', 'c'], .grp 2 (.alts [.eos, .noWord])], [.ref 1, .lit ['o', ' ', '1', ' ', 'm', 'e', 's', 'i', 'a', 'c'], .ref 2]),
    (.seqs [.grp 1 (.alts [.bos, .noWord]), .lit ['o', ' ', 'r', 'o', 'k'], .grp 2 (.alts [.eos, .noWord])], [.ref 1, .lit ['o', ' ', '1', ' ', 'r', 'o', 'k'], .ref 2]),
    (.seqs [.grp 1 (.alts [.bos, .noWord]), .lit ['o', ' ', 'p', 'o', 'l', ' ', 'r', 'o', 'k', 'a'], .grp 2 (.alts [.eos, .noWord])], [.ref 1, .lit ['o', ' ', '6', ' ', 'm', 'e', 's', 'i', 'a', 'c', 'o', 'v'], .ref 2])],
  relativeRegexes :=
   [(.seqs [.lit ['p', 'r', 'e', 'd', ' '], .grp 1 (.number), .lit [' ', 's', 'e', 'k', 'u', 'n', 'd', 'a', 'm', 'i']], [.ref 1, .lit [' ', 's', 'e', 'c', 'o', 'n', 'd', ' ', 'a', 'g', 'o']]),
    (.seqs [.lit ['p', 'r', 'e', 'd', ' '], .grp 1 (.number), .lit [' ', 'h', 'o', 'd', 'i', 'n', 'a', 'm', 'i']], [.ref 1, .lit [' ', 'h', 'o', 'u', 'r', ' ', 'a', 'g', 'o']]),
    (.seqs [.lit ['p', 'r', 'e', 'd', ' '], .grp 1 (.number), .lit [' ', 'm', 'e', 's', 'i', 'a', 'c', 'm', 'i']], [.ref 1, .lit [' ', 'm', 'o', 'n', 't', 'h', ' ', 'a', 'g', 'o']]),
    (.seqs [.lit ['p', 'r', 'e', 'd', ' '], .grp 1 (.number), .lit [' ', 'm', 'e', 's', 'i', 'a', 'c', 'o', 'm']], [.ref 1, .lit [' ', 'm', 'o', 'n', 't', 'h', ' ', 'a', 'g', 'o']]),
    (.seqs [.lit ['p', 'r', 'e', 'd', ' '], .grp 1 (.number), .lit [' ', 'm', 'i', 'n', 'u', 't', 'a', 'm', 'i']], [.ref 1, .lit [' ', 'm', 'i', 'n', 'u', 't', 'e', ' ', 'a', 'g', 'o']]),
    (.seqs [.lit ['p', 'r', 'e', 'd', ' '], .grp 1 (.number), .lit [' ', 's', 'e', 'k', 'u', 'n', 'd', 'o', 'u']], [.ref 1, .lit [' ', 's', 'e', 'c', 'o', 'n', 'd', ' ', 'a', 'g', 'o']]),
    (.seqs [.lit ['p', 'r', 'e', 'd', ' '], .grp 1 (.number), .lit [' ', 't', 'y', 'z', 'd', 'n', 'a', 'm', 'i']], [.ref 1, .lit [' ', 'w', 'e', 'e', 'k', ' ', 'a', 'g', 'o']]),
    (.seqs [.lit ['p', 'r', 'e', 'd', ' '], .grp 1 (.number), .lit [' ', 'h', 'o', 'd', 'i', 'n', 'o', 'u']], [.ref 1, .lit [' ', 'h', 'o', 'u', 'r', ' ', 'a', 'g', 'o']]),
    (.seqs [.lit ['p', 'r', 'e', 'd', ' '], .grp 1 (.number), .lit [' ', 'm', 'i', 'n', 'u', 't', 'o', 'u']], [.ref 1, .lit [' ', 'm', 'i', 'n', 'u', 't', 'e', ' ', 'a', 'g', 'o']]),
    (.seqs [.lit ['p', 'r', 'e', 'd', ' '], .grp 1 (.number), .lit [' ', 't', 'y', 'z', 'd', 'n', 'o', 'm']], [.ref 1, .lit [' ', 'w', 'e', 'e', 'k', ' ', 'a', 'g', 'o']]),
    (.seqs [.lit ['o', ' '], .grp 1 (.number), .lit [' ', 'm', 'e', 's', 'i', 'a', 'c', 'o', 'v']], [.lit ['i', 'n', ' '], .ref 1, .lit [' ', 'm', 'o', 'n', 't', 'h']]),
    (.seqs [.lit ['p', 'r', 'e', 'd', ' '], .grp 1 (.number), .lit [' ', 'd', 'n', 'a', 'm', 'i']], [.ref 1, .lit [' ', 'd', 'a', 'y', ' ', 'a', 'g', 'o']]),
    (.seqs [.lit ['p', 'r', 'e', 'd', ' '], .grp 1 (.number), .lit [' ', 'r', 'o', 'k', 'm', 'i']], [.ref 1, .lit [' ', 'y', 'e', 'a', 'r', ' ', 'a', 'g', 'o']]),
    (.seqs [.lit ['p', 'r', 'e', 'd', ' '], .grp 1 (.number), .lit [' ', 'r', 'o', 'k', 'o', 'm']], [.ref 1, .lit [' ', 'y', 'e', 'a', 'r', ' ', 'a', 'g', 'o']]),
    (.seqs [.lit ['o', ' '], .grp 1 (.number), .lit [' ', 'm', 'e', 's', 'i', 'a', 'c', 'e']], [.lit ['i', 'n', ' '], .ref 1, .lit [' ', 'm', 'o', 'n', 't', 'h']]),
    (.seqs [.lit ['o', ' '], .grp 1 (.number), .lit [' ', 's', 'e', 'k', 'u', 'n', 'd', 'u']], [.lit ['i', 'n', ' '], .ref 1, .lit [' ', 's', 'e', 'c', 'o', 'n', 'd']]),
    (.seqs [.lit ['o', ' '], .grp 1 (.number), .lit [' ', 's', 'e', 'k', 'u', 'n', 'd', 'y']], [.lit ['i', 'n', ' '], .ref 1, .lit [' ', 's', 'e', 'c', 'o', 'n', 'd']]),
    (.seqs [.lit ['o', ' '], .grp 1 (.number), .lit [' ', 't', 'y', 'z', 'd', 'n', 'o', 'v']], [.lit ['i', 'n', ' '], .ref 1, .lit [' ', 'w', 'e', 'e', 'k']]),
    (.seqs [.lit ['p', 'r', 'e', 'd', ' '], .grp 1 (.number), .lit [' ', 'd', 'n', 'o', 'm']], [.ref 1, .lit [' ', 'd', 'a', 'y', ' ', 'a', 'g', 'o']]),
    (.seqs [.lit ['o', ' '], .grp 1 (.number), .lit [' ', 'h', 'o', 'd', 'i', 'n', 'u']], [.lit ['i', 'n', ' '], .ref 1, .lit [' ', 'h', 'o', 'u', 'r']]),
    (.seqs [.lit ['o', ' '], .grp 1 (.number), .lit [' ', 'h', 'o', 'd', 'i', 'n', 'y']], [.lit ['i', 'n', ' '], .ref 1, .lit [' ', 'h', 'o', 'u', 'r']]),
    (.seqs [.lit ['o', ' '], .grp 1 (.number), .lit [' ', 'm', 'e', 's', 'i', 'a', 'c']], [.lit ['i', 'n', ' '], .ref 1, .lit [' ', 'm', 'o', 'n', 't', 'h']]),
    (.seqs [.lit ['o', ' '], .grp 1 (.number), .lit [' ', 'm', 'i', 'n', 'u', 't', 'u']], [.lit ['i', 'n', ' '], .ref 1, .lit [' ', 'm', 'i', 'n', 'u', 't', 'e']]),
    (.seqs [.lit ['o', ' '], .grp 1 (.number), .lit [' ', 'm', 'i', 'n', 'u', 't', 'y']], [.lit ['i', 'n', ' '], .ref 1, .lit [' ', 'm', 'i', 'n', 'u', 't', 'e']]),
    (.seqs [.lit ['o', ' '], .grp 1 (.number), .lit [' ', 's', 'e', 'k', 'u', 'n', 'd']], [.lit ['i', 'n', ' '], .ref 1, .lit [' ', 's', 'e', 'c', 'o', 'n', 'd']]),
    (.seqs [.lit ['o', ' '], .grp 1 (.number), .lit [' ', 't', 'y', 'z', 'd', 'e', 'n']], [.lit ['i', 'n', ' '], .ref 1, .lit [' ', 'w', 'e', 'e', 'k']]),
    (.seqs [.lit ['o', ' '], .grp 1 (.number), .lit [' ', 't', 'y', 'z', 'd', 'n', 'e']], [.lit ['i', 'n', ' '], .ref 1, .lit [' ', 'w', 'e', 'e', 'k']]),
    (.seqs [.lit ['p', 'r', 'e', 'd', ' '], .grp 1 (.number), .lit [' ', 'm', 'e', 's']], [.ref 1, .lit [' ', 'm', 'o', 'n', 't', 'h', ' ', 'a', 'g', 'o']]),
    (.seqs [.lit ['p', 'r', 'e', 'd', ' '], .grp 1 (.number), .lit [' ', 'm', 'i', 'n']], [.ref 1, .lit [' ', 'm', 'i', 'n', 'u', 't', 'e', ' ', 'a', 'g', 'o']]),
    (.seqs [.lit ['p', 'r', 'e', 'd', ' '], .grp 1 (.number), .lit [' ', 't', 'y', 'z']], [.ref 1, .lit [' ', 'w', 'e', 'e', 'k', ' ', 'a', 'g', 'o']]),
    (.seqs [.lit ['o', ' '], .grp 1 (.number), .lit [' ', 'h', 'o', 'd', 'i', 'n']], [.lit ['i', 'n', ' '], .ref 1, .lit [' ', 'h', 'o', 'u', 'r']]),
    (.seqs [.lit ['o', ' '], .grp 1 (.number), .lit [' ', 'm', 'i', 'n', 'u', 't']], [.lit ['i', 'n', ' '], .ref 1, .lit [' ', 'm', 'i', 'n', 'u', 't', 'e']]),
    (.seqs [.lit ['o', ' '], .grp 1 (.number), .lit [' ', 'r', 'o', 'k', 'o', 'v']], [.lit ['i', 'n', ' '], .ref 1, .lit [' ', 'y', 'e', 'a', 'r']]),
    (.seqs [.lit ['o', ' '], .grp 1 (.number), .lit [' ', 'r', 'o', 'k', 'y']], [.lit ['i', 'n', ' '], .ref 1, .lit [' ', 'y', 'e', 'a', 'r']]),
    (.seqs [.lit ['p', 'r', 'e', 'd', ' '], .grp 1 (.number), .lit [' ', 'd']], [.ref 1, .lit [' ', 'd', 'a', 'y', ' ', 'a', 'g', 'o']]),
    (.seqs [.lit ['p', 'r', 'e', 'd', ' '], .grp 1 (.number), .lit [' ', 'h']], [.ref 1, .lit [' ', 'h', 'o', 'u', 'r', ' ', 'a', 'g', 'o']]),
    (.seqs [.lit ['p', 'r', 'e', 'd', ' '], .grp 1 (.number), .lit [' ', 'r']], [.ref 1, .lit [' ', 'y', 'e', 'a', 'r', ' ', 'a', 'g', 'o']]),
    (.seqs [.lit ['p', 'r', 'e', 'd', ' '], .grp 1 (.number), .lit [' ', 's']], [.ref 1, .lit [' ', 's', 'e', 'c', 'o', 'n', 'd', ' ', 'a', 'g', 'o']]),
    (.seqs [.lit ['o', ' '], .grp 1 (.number), .lit [' ', 'd', 'e', 'n']], [.lit ['i', 'n', ' '], .ref 1, .lit [' ', 'd', 'a', 'y']]),
    (.seqs [.lit ['o', ' '], .grp 1 (.number), .lit [' ', 'd', 'n', 'i']], [.lit ['i', 'n', ' '], .ref 1, .lit [' ', 'd', 'a', 'y']]),
    (.seqs [.lit ['o', ' '], .grp 1 (.number), .lit [' ', 'm', 'e', 's']], [.lit ['i', 'n', ' '], .ref 1, .lit [' ', 'm', 'o', 'n', 't', 'h']]),
    (.seqs [.lit ['o', ' '], .grp 1 (.number), .lit [' ', 'm', 'i', 'n']], [.lit ['i', 'n', ' '], .ref 1, .lit [' ', 'm', 'i', 'n', 'u', 't', 'e']]),
    (.seqs [.lit ['o', ' '], .grp 1 (.number), .lit [' ', 'r', 'o', 'k']], [.lit ['i', 'n', ' '], .ref 1, .lit [' ', 'y', 'e', 'a', 'r']]),
    (.seqs [.lit ['o', ' '], .grp 1 (.number), .lit [' ', 't', 'y', 'z']], [.lit ['i', 'n', ' '], .ref 1, .lit [' ', 'w', 'e', 'e', 'k']]),
    (.seqs [.lit ['o', ' '], .grp 1 (.number), .lit [' ', 'd']], [.lit ['i', 'n', ' '], .ref 1, .lit [' ', 'd', 'a', 'y']]),
    (.seqs [.lit ['o', ' '], .grp 1 (.number), .lit [' ', 'h']], [.lit ['i', 'n', ' '], .ref 1, .lit [' ', 'h', 'o', 'u', 'r']]),
    (.seqs [.lit ['o', ' '], .grp 1 (.number), .lit [' ', 'r']], [.lit ['i', 'n', ' '], .ref 1, .lit [' ', 'y', 'e', 'a', 'r']]),
    (.seqs [.lit ['o', ' '], .grp 1 (.number), .lit [' ', 's']], [.lit ['i', 'n', ' '], .ref 1, .lit [' ', 's', 'e', 'c', 'o', 'n', 'd']])],
  rxCombined := some (.seqs [.grp 1 (.alts [.bos, .cls true [.letter, .mark, .digit], .lit ['_']]), .grp 2 (.alts [.seqs [.lit ['p', 'r', 'e', 'd', ' '], .number, .lit [' ', 's', 'e', 'k', 'u', 'n', 'd', 'a', 'm', 'i']], .seqs [.lit ['p', 'r', 'e', 'd', ' '], .number, .lit [' ', 'h', 'o', 'd', 'i', 'n', 'a', 'm', 'i']], .seqs [.lit ['p', 'r', 'e', 'd', ' '], .number, .lit [' ', 'm', 'e', 's', 'i', 'a', 'c', 'm', 'i']], .seqs [.lit ['p', 'r', 'e', 'd', ' '], .number, .lit [' ', 'm', 'e', 's', 'i', 'a', 'c', 'o', 'm']], .seqs [.lit ['p', 'r', 'e', 'd', ' '], .number, .lit [' ', 'm', 'i', 'n', 'u', 't', 'a', 'm', 'i']], .seqs [.lit ['p', 'r', 'e', 'd', ' '], .number, .lit [' ', 's', 'e', 'k', 'u', 'n', 'd', 'o', 'u']], .seqs [.lit ['p', 'r', 'e', 'd', ' '], .number, .lit [' ', 't', 'y', 'z', 'd', 'n', 'a', 'm', 'i']], .seqs [.lit ['p', 'r', 'e', 'd', ' '], .number, .lit [' ', 'h', 'o', 'd', 'i', 'n', 'o', 'u']], .seqs [.lit ['p', 'r', 'e', 'd', ' '], .number, .lit [' ', 'm', 'i', 'n', 'u', 't', 'o', 'u']], .seqs [.lit ['p', 'r', 'e', 'd', ' '], .number, .lit [' ', 't', 'y', 'z', 'd', 'n', 'o', 'm']], .seqs [.lit ['o', ' '], .number, .lit [' ', 'm', 'e', 's', 'i', 'a', 'c', 'o', 'v']], .seqs [.lit ['p', 'r', 'e', 'd', ' '], .number, .lit [' ', 'd', 'n', 'a', 'm', 'i']], .seqs [.lit ['p', 'r', 'e', 'd', ' '], .number, .lit [' ', 'r', 'o', 'k', 'm', 'i']], .seqs [.lit ['p', 'r', 'e', 'd', ' '], .number, .lit [' ', 'r', 'o', 'k', 'o', 'm']], .seqs [.lit ['o', ' '], .number, .lit [' ', 'm', 'e', 's', 'i', 'a', 'c', 'e']], .seqs [.lit ['o', ' '], .number, .lit [' ', 's', 'e', 'k', 'u', 'n', 'd', 'u']], .seqs [.lit ['o', ' '], .number, .lit [' ', 's', 'e', 'k', 'u', 'n', 'd', 'y']], .seqs [.lit ['o', ' '], .number, .lit [' ', 't', 'y', 'z', 'd', 'n', 'o', 'v']], .seqs [.lit ['p', 'r', 'e', 'd', ' '], .number, .lit [' ', 'd', 'n', 'o', 'm']], .seqs [.lit ['o', ' '], .number, .lit [' ', 'h', 'o', 'd', 'i', 'n', 'u']], .seqs [.lit ['o', ' '], .number, .lit [' ', 'h', 'o', 'd', 'i', 'n', 'y']], .seqs [.lit ['o', ' '], .number, .lit [' ', 'm', 'e', 's', 'i', 'a', 'c']], .seqs [.lit ['o', ' '], .number, .lit [' ', 'm', 'i', 'n', 'u', 't', 'u']], .seqs [.lit ['o', ' '], .number, .lit [' ', 'm', 'i', 'n', 'u', 't', 'y']], .seqs [.lit ['o', ' '], .number, .lit [' ', 's', 'e', 'k', 'u', 'n', 'd']], .seqs [.lit ['o', ' '], .number, .lit [' ', 't', 'y', 'z', 'd', 'e', 'n']], .seqs [.lit ['o', ' '], .number, .lit [' ', 't', 'y', 'z', 'd', 'n', 'e']], .seqs [.lit ['p', 'r', 'e', 'd', ' '], .number, .lit [' ', 'm', 'e', 's']], .seqs [.lit ['p', 'r', 'e', 'd', ' '], .number, .lit [' ', 'm', 'i', 'n']], .seqs [.lit ['p', 'r', 'e', 'd', ' '], .number, .lit [' ', 't', 'y', 'z']], .seqs [.lit ['o', ' '], .number, .lit [' ', 'h', 'o', 'd', 'i', 'n']], .seqs [.lit ['o', ' '], .number, .lit [' ', 'm', 'i', 'n', 'u', 't']], .seqs [.lit ['o', ' '], .number, .lit [' ', 'r', 'o', 'k', 'o', 'v']], .seqs [.lit ['o', ' '], .number, .lit [' ', 'r', 'o', 'k', 'y']], .seqs [.lit ['p', 'r', 'e', 'd', ' '], .number, .lit [' ', 'd']], .seqs [.lit ['p', 'r', 'e', 'd', ' '], .number, .lit [' ', 'h']], .seqs [.lit ['p', 'r', 'e', 'd', ' '], .number, .lit [' ', 'r']], .seqs [.lit ['p', 'r', 'e', 'd', ' '], .number, .lit [' ', 's']], .seqs [.lit ['o', ' '], .number, .lit [' ', 'd', 'e', 'n']], .seqs [.lit ['o', ' '], .number, .lit [' ', 'd', 'n', 'i']], .seqs [.lit ['o', ' '], .number, .lit [' ', 'm', 'e', 's']], .seqs [.lit ['o', ' '], .number, .lit [' ', 'm', 'i', 'n']], .seqs [.lit ['o', ' '], .number, .lit [' ', 'r', 'o', 'k']], .seqs [.lit ['o', ' '], .number, .lit [' ', 't', 'y', 'z']], .seqs [.lit ['o', ' '], .number, .lit [' ', 'd']], .seqs [.lit ['o', ' '], .number, .lit [' ', 'h']], .seqs [.lit ['o', ' '], .number, .lit [' ', 'r']], .seqs [.lit ['o', ' '], .number, .lit [' ', 's']]]), .grp 3 (.alts [.eos, .cls true [.letter, .mark, .digit], .lit ['_']])], 3),
  rxExact := some (.seqs [.bos, .grp 1 (.alts [.seqs [.lit ['p', 'r', 'e', 'd', ' '], .number, .lit [' ', 's', 'e', 'k', 'u', 'n', 'd', 'a', 'm', 'i']], .seqs [.lit ['p', 'r', 'e', 'd', ' '], .number, .lit [' ', 'h', 'o', 'd', 'i', 'n', 'a', 'm', 'i']], .seqs [.lit ['p', 'r', 'e', 'd', ' '], .number, .lit [' ', 'm', 'e', 's', 'i', 'a', 'c', 'm', 'i']], .seqs [.lit ['p', 'r', 'e', 'd', ' '], .number, .lit [' ', 'm', 'e', 's', 'i', 'a', 'c', 'o', 'm']], .seqs [.lit ['p', 'r', 'e', 'd', ' '], .number, .lit [' ', 'm', 'i', 'n', 'u', 't', 'a', 'm', 'i']], .seqs [.lit ['p', 'r', 'e', 'd', ' '], .number, .lit [' ', 's', 'e', 'k', 'u', 'n', 'd', 'o', 'u']], .seqs [.lit ['p', 'r', 'e', 'd', ' '], .number, .lit [' ', 't', 'y', 'z', 'd', 'n', 'a', 'm', 'i']], .seqs [.lit ['p', 'r', 'e', 'd', ' '], .number, .lit [' ', 'h', 'o', 'd', 'i', 'n', 'o', 'u']], .seqs [.lit ['p', 'r', 'e', 'd', ' '], .number, .lit [' ', 'm', 'i', 'n', 'u', 't', 'o', 'u']], .seqs [.lit ['p', 'r', 'e', 'd', ' '], .number, .lit [' ', 't', 'y', 'z', 'd', 'n', 'o', 'm']], .seqs [.lit ['o', ' '], .number, .lit [' ', 'm', 'e', 's', 'i', 'a', 'c', 'o', 'v']], .seqs [.lit ['p', 'r', 'e', 'd', ' '], .number, .lit [' ', 'd', 'n', 'a', 'm', 'i']], .seqs [.lit ['p', 'r', 'e', 'd', ' '], .number, .lit [' ', 'r', 'o', 'k', 'm', 'i']], .seqs [.lit ['p', 'r', 'e', 'd', ' '], .number, .lit [' ', 'r', 'o', 'k', 'o', 'm']], .seqs [.lit ['o', ' '], .number, .lit [' ', 'm', 'e', 's', 'i', 'a', 'c', 'e']], .seqs [.lit ['o', ' '], .number, .lit [' ', 's', 'e', 'k', 'u', 'n', 'd', 'u']], .seqs [.lit ['o', ' '], .number, .lit [' ', 's', 'e', 'k', 'u', 'n', 'd', 'y']], .seqs [.lit ['o', ' '], .number, .lit [' ', 't', 'y', 'z', 'd', 'n', 'o', 'v']], .seqs [.lit ['p', 'r', 'e', 'd', ' '], .number, .lit [' ', 'd', 'n', 'o', 'm']], .seqs [.lit ['o', ' '], .number, .lit [' ', 'h', 'o', 'd', 'i', 'n', 'u']], .seqs [.lit ['o', ' '], .number, .lit [' ', 'h', 'o', 'd', 'i', 'n', 'y']], .seqs [.lit ['o', ' '], .number, .lit [' ', 'm', 'e', 's', 'i', 'a', 'c']], .seqs [.lit ['o', ' '], .number, .lit [' ', 'm', 'i', 'n', 'u', 't', 'u']], .seqs [.lit ['o', ' '], .number, .lit [' ', 'm', 'i', 'n', 'u', 't', 'y']], .seqs [.lit ['o', ' '], .number, .lit [' ', 's', 'e', 'k', 'u', 'n', 'd']], .seqs [.lit ['o', ' '], .number, .lit [' ', 't', 'y', 'z', 'd', 'e', 'n']], .seqs [.lit ['o', ' '], .number, .lit [' ', 't', 'y', 'z', 'd', 'n', 'e']], .seqs [.lit ['p', 'r', 'e', 'd', ' '], .number, .lit [' ', 'm', 'e', 's']], .seqs [.lit ['p', 'r', 'e', 'd', ' '], .number, .lit [' ', 'm', 'i', 'n']], .seqs [.lit ['p', 'r', 'e', 'd', ' '], .number, .lit [' ', 't', 'y', 'z']], .seqs [.lit ['o', ' '], .number, .lit [' ', 'h', 'o', 'd', 'i', 'n']], .seqs [.lit ['o', ' '], .number, .lit [' ', 'm', 'i', 'n', 'u', 't']], .seqs [.lit ['o', ' '], .number, .lit [' ', 'r', 'o', 'k', 'o', 'v']], .seqs [.lit ['o', ' '], .number, .lit [' ', 'r', 'o', 'k', 'y']], .seqs [.lit ['p', 'r', 'e', 'd', ' '], .number, .lit [' ', 'd']], .seqs [.lit ['p', 'r', 'e', 'd', ' '], .number, .lit [' ', 'h']], .seqs [.lit ['p', 'r', 'e', 'd', ' '], .number, .lit [' ', 'r']], .seqs [.lit ['p', 'r', 'e', 'd', ' '], .number, .lit [' ', 's']], .seqs [.lit ['o', ' '], .number, .lit [' ', 'd', 'e', 'n']], .seqs [.lit ['o', ' '], .number, .lit [' ', 'd', 'n', 'i']], .seqs [.lit ['o', ' '], .number, .lit [' ', 'm', 'e', 's']], .seqs [.lit ['o', ' '], .number, .lit [' ', 'm', 'i', 'n']], .seqs [.lit ['o', ' '], .number, .lit [' ', 'r', 'o', 'k']], .seqs [.lit ['o', ' '], .number, .lit [' ', 't', 'y', 'z']], .seqs [.lit ['o', ' '], .number, .lit [' ', 'd']], .seqs [.lit ['o', ' '], .number, .lit [' ', 'h']], .seqs [.lit ['o', ' '], .number, .lit [' ', 'r']], .seqs [.lit ['o', ' '], .number, .lit [' ', 's']]]), .eos]),
  knownWords :=
   [['v', ' ', 't', 'e', 'j', 't', 'o', ' ', 'h', 'o', 'd', 'i', 'n', 'e'], ['v', ' ', 't', 'e', 'j', 't', 'o', ' ', 'm', 'i', 'n', 'u', 't', 'e'], ['b', 'u', 'd', 'u', 'c', 'i', ' ', 'm', 'e', 's', 'i', 'a', 'c'], ['b', 'u', 'd', 'u', 'c', 'i', ' ', 't', 'y', 'z', 'd', 'e', 'n'], ['m', 'i', 'n', 'u', 'l', 'y', ' ', 'm', 'e', 's', 'i', 'a', 'c'], ['m', 'i', 'n', 'u', 'l', 'y', ' ', 't', 'y', 'z', 'd', 'e', 'n'], ['t', 'e', 'n', 't', 'o', ' ', 'm', 'e', 's', 'i', 'a', 'c'], ['t', 'e', 'n', 't', 'o', ' ', 't', 'y', 'z', 'd', 'e', 'n'], ['b', 'u', 'd', 'u', 'c', 'i', ' ', 'r', 'o', 'k'], ['m', 'i', 'n', 'u', 'l', 'y', ' ', 'r', 'o', 'k'], ['p', 'r', 'e', 'd', 'v', 'c', 'e', 'r', 'o', 'm'], ['s', 'e', 'p', 't', 'e', 'm', 'b', 'e', 'r'], ['s', 'e', 'p', 't', 'e', 'm', 'b', 'r', 'a'], ['t', 'e', 'n', 't', 'o', ' ', 'r', 'o', 'k'], ['d', 'e', 'c', 'e', 'm', 'b', 'e', 'r'], ['d', 'e', 'c', 'e', 'm', 'b', 'r', 'a'], ['f', 'e', 'b', 'r', 'u', 'a', 'r', 'a'], ['n', 'o', 'v', 'e', 'm', 'b', 'e', 'r'], ['n', 'o', 'v', 'e', 'm', 'b', 'r', 'a'], ['p', 'o', 'n', 'd', 'e', 'l', 'o', 'k'], ['p', 'o', 'z', 'a', 'j', 't', 'r', 'a'], ['a', 'u', 'g', 'u', 's', 't', 'a'], ['f', 'e', 'b', 'r', 'u', 'a', 'r'], ['j', 'a', 'n', 'u', 'a', 'r', 'a'], ['o', 'k', 't', 'o', 'b', 'e', 'r'], ['o', 'k', 't', 'o', 'b', 'r', 'a'], ['s', 'e', 'k', 'u', 'n', 'd', 'a'], ['s', 't', 'v', 'r', 't', 'o', 'k'], ['a', 'p', 'r', 'i', 'l', 'a'], ['a', 'u', 'g', 'u', 's', 't'], ['h', 'o', 'd', 'i', 'n', 'a'], ['j', 'a', 'n', 'u', 'a', 'r'], ['m', 'e', 's', 'i', 'a', 'c'], ['m', 'i', 'n', 'u', 't', 'a'], ['n', 'e', 'd', 'e', 'l', 'a'], ['n', 'e', 'd', 'e', 'l', 'u'], ['p', 'i', 'a', 't', 'o', 'k'], ['s', 'o', 'b', 'o', 't', 'a'], ['s', 'o', 'b', 'o', 't', 'u'], ['s', 't', 'r', 'e', 'd', 'a'], ['s', 't', 'r', 'e', 'd', 'u'], ['t', 'y', 'z', 'd', 'e', 'n'], ['u', 't', 'o', 'r', 'o', 'k'], ['z', 'a', 'j', 't', 'r', 'a'], ['a', 'p', 'r', 'i', 'l'], ['m', 'a', 'r', 'c', 'a'], ['m', 'a', 'r', 'e', 'c'], ['t', 'e', 'r', 'a', 'z'], ['v', 'c', 'e', 'r', 'a'], ['d', 'n', 'e', 's'], ['j', 'u', 'l', 'a'], ['j', 'u', 'n', 'a'], ['m', 'a', 'j', 'a'], ['p', 'r', 'e', 'd'], ['a', 'p', 'r'], ['a', 'u', 'g'], ['d', 'e', 'c'], ['d', 'e', 'n'], ['f', 'e', 'b'], ['g', 'm', 't'], ['j', 'a', 'n'], ['j', 'u', 'l'], ['j', 'u', 'n'], ['m', 'a', 'j'], ['m', 'a', 'r'], ['m', 'e', 's'], ['m', 'i', 'n'], ['n', 'o', 'v'], ['o', 'k', 't'], ['r', 'o', 'k'], ['s', 'e', 'p'], ['t', 'y', 'z'], ['u', 't', 'c'], ['a', 'm'], ['n', 'e'], ['p', 'i'], ['p', 'm'], ['p', 'o'], ['s', 'o'], ['s', 't'], ['u', 't'], ['v', 'o'], ['z', 'a'], [' '], ['\''], ['+'], [','], ['-'], ['.'], ['/'], [':'], [';'], ['@'], ['['], [']'], ['d'], ['h'], ['o'], ['r'], ['s'], ['v'], ['z'], ['|']] }

/-- internal/data/sl.go: `sl_Locale`. -/
def slLang : LangData := { slDict with
  relativeRegexes :=
   [(.seqs [.lit ['p', 'r', 'e', 'd', ' '], .grp 1 (.number), .lit [' ', 's', 'e', 'k', 'u', 'n', 'd', 'a', 'm', 'i']], [.ref 1, .lit [' ', 's', 'e', 'c', 'o', 'n', 'd', ' ', 'a', 'g', 'o']]),
    (.seqs [.lit ['p', 'r', 'e', 'd', ' '], .grp 1 (.number), .lit [' ', 'm', 'i', 'n', 'u', 't', 'a', 'm', 'i']], [.ref 1, .lit [' ', 'm', 'i', 'n', 'u', 't', 'e', ' ', 'a', 'g', 'o']]),
    (.seqs [.lit ['p', 'r', 'e', 'd', ' '], .grp 1 (.number), .lit [' ', 'm', 'e', 's', 'e', 'c', 'e', 'm']], [.ref 1, .lit [' ', 'm', 'o', 'n', 't', 'h', ' ', 'a', 'g', 'o']]),
    (.seqs [.lit ['p', 'r', 'e', 'd', ' '], .grp 1 (.number), .lit [' ', 's', 'e', 'k', 'u', 'n', 'd', 'o']], [.ref 1, .lit [' ', 's', 'e', 'c', 'o', 'n', 'd', ' ', 'a', 'g', 'o']]),
    (.seqs [.lit ['c', 'e', 'z', ' '], .grp 1 (.number), .lit [' ', 'm', 'e', 's', 'e', 'c', 'e', 'v']], [.lit ['i', 'n', ' '], .ref 1, .lit [' ', 'm', 'o', 'n', 't', 'h']]),
    (.seqs [.lit ['c', 'e', 'z', ' '], .grp 1 (.number), .lit [' ', 's', 'e', 'k', 'u', 'n', 'd', 'o']], [.lit ['i', 'n', ' '], .ref 1, .lit [' ', 's', 'e', 'c', 'o', 'n', 'd']]),
    (.seqs [.lit ['p', 'r', 'e', 'd', ' '], .grp 1 (.number), .lit [' ', 'd', 'n', 'e', 'v', 'o', 'm']], [.ref 1, .lit [' ', 'd', 'a', 'y', ' ', 'a', 'g', 'o']]),
    (.seqs [.lit ['p', 'r', 'e', 'd', ' '], .grp 1 (.number), .lit [' ', 'm', 'e', 's', 'e', 'c', 'i']], [.ref 1, .lit [' ', 'm', 'o', 'n', 't', 'h', ' ', 'a', 'g', 'o']]),
    (.seqs [.lit ['p', 'r', 'e', 'd', ' '], .grp 1 (.number), .lit [' ', 'm', 'i', 'n', 'u', 't', 'o']], [.ref 1, .lit [' ', 'm', 'i', 'n', 'u', 't', 'e', ' ', 'a', 'g', 'o']]),
    (.seqs [.lit ['p', 'r', 'e', 'd', ' '], .grp 1 (.number), .lit [' ', 't', 'e', 'd', 'n', 'o', 'm']], [.ref 1, .lit [' ', 'w', 'e', 'e', 'k', ' ', 'a', 'g', 'o']]),
    (.seqs [.lit ['c', 'e', 'z', ' '], .grp 1 (.number), .lit [' ', 'm', 'i', 'n', 'u', 't', 'o']], [.lit ['i', 'n', ' '], .ref 1, .lit [' ', 'm', 'i', 'n', 'u', 't', 'e']]),
    (.seqs [.lit ['c', 'e', 'z', ' '], .grp 1 (.number), .lit [' ', 's', 'e', 'k', 'u', 'n', 'd']], [.lit ['i', 'n', ' '], .ref 1, .lit [' ', 's', 'e', 'c', 'o', 'n', 'd']]),
    (.seqs [.lit ['c', 'e', 'z', ' '], .grp 1 (.number), .lit [' ', 't', 'e', 'd', 'n', 'o', 'v']], [.lit ['i', 'n', ' '], .ref 1, .lit [' ', 'w', 'e', 'e', 'k']]),
    (.seqs [.lit ['p', 'r', 'e', 'd', ' '], .grp 1 (.number), .lit [' ', 'd', 'n', 'e', 'v', 'i']], [.ref 1, .lit [' ', 'd', 'a', 'y', ' ', 'a', 'g', 'o']]),
    (.seqs [.lit ['p', 'r', 'e', 'd', ' '], .grp 1 (.number), .lit [' ', 'l', 'e', 't', 'o', 'm']], [.ref 1, .lit [' ', 'y', 'e', 'a', 'r', ' ', 'a', 'g', 'o']]),
    (.seqs [.lit ['p', 'r', 'e', 'd', ' '], .grp 1 (.number), .lit [' ', 't', 'e', 'd', 'n', 'i']], [.ref 1, .lit [' ', 'w', 'e', 'e', 'k', ' ', 'a', 'g', 'o']]),
    (.seqs [.lit ['p', 'r', 'e', 'd', ' '], .grp 1 (.number), .lit [' ', 'u', 'r', 'a', 'm', 'i']], [.ref 1, .lit [' ', 'h', 'o', 'u', 'r', ' ', 'a', 'g', 'o']]),
    (.seqs [.lit ['c', 'e', 'z', ' '], .grp 1 (.number), .lit [' ', 'm', 'e', 's', 'e', 'c']], [.lit ['i', 'n', ' '], .ref 1, .lit [' ', 'm', 'o', 'n', 't', 'h']]),
    (.seqs [.lit ['c', 'e', 'z', ' '], .grp 1 (.number), .lit [' ', 'm', 'i', 'n', 'u', 't']], [.lit ['i', 'n', ' '], .ref 1, .lit [' ', 'm', 'i', 'n', 'u', 't', 'e']]),
    (.seqs [.lit ['c', 'e', 'z', ' '], .grp 1 (.number), .lit [' ', 't', 'e', 'd', 'e', 'n']], [.lit ['i', 'n', ' '], .ref 1, .lit [' ', 'w', 'e', 'e', 'k']]),
    (.seqs [.lit ['p', 'r', 'e', 'd', ' '], .grp 1 (.number), .lit [' ', 'l', 'e', 't', 'i']], [.ref 1, .lit [' ', 'y', 'e', 'a', 'r', ' ', 'a', 'g', 'o']]),
    (.seqs [.lit ['c', 'e', 'z', ' '], .grp 1 (.number), .lit [' ', 'l', 'e', 't', 'o']], [.lit ['i', 'n', ' '], .ref 1, .lit [' ', 'y', 'e', 'a', 'r']]),
    (.seqs [.lit ['p', 'r', 'e', 'd', ' '], .grp 1 (.number), .lit [' ', 'm', 'e', 's']], [.ref 1, .lit [' ', 'm', 'o', 'n', 't', 'h', ' ', 'a', 'g', 'o']]),
    (.seqs [.lit ['p', 'r', 'e', 'd', ' '], .grp 1 (.number), .lit [' ', 'm', 'i', 'n']], [.ref 1, .lit [' ', 'm', 'i', 'n', 'u', 't', 'e', ' ', 'a', 'g', 'o']]),
    (.seqs [.lit ['p', 'r', 'e', 'd', ' '], .grp 1 (.number), .lit [' ', 't', 'e', 'd']], [.ref 1, .lit [' ', 'w', 'e', 'e', 'k', ' ', 'a', 'g', 'o']]),
    (.seqs [.lit ['p', 'r', 'e', 'd', ' '], .grp 1 (.number), .lit [' ', 'u', 'r', 'o']], [.ref 1, .lit [' ', 'h', 'o', 'u', 'r', ' ', 'a', 'g', 'o']]),
    (.seqs [.lit ['c', 'e', 'z', ' '], .grp 1 (.number), .lit [' ', 'd', 'a', 'n']], [.lit ['i', 'n', ' '], .ref 1, .lit [' ', 'd', 'a', 'y']]),
    (.seqs [.lit ['c', 'e', 'z', ' '], .grp 1 (.number), .lit [' ', 'd', 'n', 'i']], [.lit ['i', 'n', ' '], .ref 1, .lit [' ', 'd', 'a', 'y']]),
    (.seqs [.lit ['c', 'e', 'z', ' '], .grp 1 (.number), .lit [' ', 'l', 'e', 't']], [.lit ['i', 'n', ' '], .ref 1, .lit [' ', 'y', 'e', 'a', 'r']]),
    (.seqs [.lit ['c', 'e', 'z', ' '], .grp 1 (.number), .lit [' ', 'm', 'e', 's']], [.lit ['i', 'n', ' '], .ref 1, .lit [' ', 'm', 'o', 'n', 't', 'h']]),
    (.seqs [.lit ['c', 'e', 'z', ' '], .grp 1 (.number), .lit [' ', 'm', 'i', 'n']], [.lit ['i', 'n', ' '], .ref 1, .lit [' ', 'm', 'i', 'n', 'u', 't', 'e']]),
    (.seqs [.lit ['c', 'e', 'z', ' '], .grp 1 (.number), .lit [' ', 't', 'e', 'd']], [.lit ['i', 'n', ' '], .ref 1, .lit [' ', 'w', 'e', 'e', 'k']]),
    (.seqs [.lit ['c', 'e', 'z', ' '], .grp 1 (.number), .lit [' ', 'u', 'r', 'o']], [.lit ['i', 'n', ' '], .ref 1, .lit [' ', 'h', 'o', 'u', 'r']]),
    (.seqs [.lit ['c', 'e', 'z', ' '], .grp 1 (.number), .lit [' ', 'u', 'r']], [.lit ['i', 'n', ' '], .ref 1, .lit [' ', 'h', 'o', 'u', 'r']]),
    (.seqs [.lit ['p', 'r', 'e', 'd', ' '], .grp 1 (.number), .lit [' ', 'h']], [.ref 1, .lit [' ', 'h', 'o', 'u', 'r', ' ', 'a', 'g', 'o']]),
    (.seqs [.lit ['p', 'r', 'e', 'd', ' '], .grp 1 (.number), .lit [' ', 's']], [.ref 1, .lit [' ', 's', 'e', 'c', 'o', 'n', 'd', ' ', 'a', 'g', 'o']]),
    (.seqs [.lit ['c', 'e', 'z', ' '], .grp 1 (.number), .lit [' ', 'h']], [.lit ['i', 'n', ' '], .ref 1, .lit [' ', 'h', 'o', 'u', 'r']]),
    (.seqs [.lit ['c', 'e', 'z', ' '], .grp 1 (.number), .lit [' ', 's']], [.lit ['i', 'n', ' '], .ref 1, .lit [' ', 's', 'e', 'c', 'o', 'n', 'd']])],
  rxCombined := some (.seqs [.grp 1 (.alts [.bos, .cls true [.letter, .mark, .digit], .lit ['_']]), .grp 2 (.alts [.seqs [.lit ['p', 'r', 'e', 'd', ' '], .number, .lit [' ', 's', 'e', 'k', 'u', 'n', 'd', 'a', 'm', 'i']], .seqs [.lit ['p', 'r', 'e', 'd', ' '], .number, .lit [' ', 'm', 'i', 'n', 'u', 't', 'a', 'm', 'i']], .seqs [.lit ['p', 'r', 'e', 'd', ' '], .number, .lit [' ', 'm', 'e', 's', 'e', 'c', 'e', 'm']], .seqs [.lit ['p', 'r', 'e', 'd', ' '], .number, .lit [' ', 's', 'e', 'k', 'u', 'n', 'd', 'o']], .seqs [.lit ['c', 'e', 'z', ' '], .number, .lit [' ', 'm', 'e', 's', 'e', 'c', 'e', 'v']], .seqs [.lit ['c', 'e', 'z', ' '], .number, .lit [' ', 's', 'e', 'k', 'u', 'n', 'd', 'o']], .seqs [.lit ['p', 'r', 'e', 'd', ' '], .number, .lit [' ', 'd', 'n', 'e', 'v', 'o', 'm']], .seqs [.lit ['p', 'r', 'e', 'd', ' '], .number, .lit [' ', 'm', 'e', 's', 'e', 'c', 'i']], .seqs [.lit ['p', 'r', 'e', 'd', ' '], .number, .lit [' ', 'm', 'i', 'n', 'u', 't', 'o']], .seqs [.lit ['p', 'r', 'e', 'd', ' '], .number, .lit [' ', 't', 'e', 'd', 'n', 'o', 'm']], .seqs [.lit ['c', 'e', 'z', ' '], .number, .lit [' ', 'm', 'i', 'n', 'u', 't', 'o']], .seqs [.lit ['c', 'e', 'z', ' '], .number, .lit [' ', 's', 'e', 'k', 'u', 'n', 'd']], .seqs [.lit ['c', 'e', 'z', ' '], .number, .lit [' ', 't', 'e', 'd', 'n', 'o', 'v']], .seqs [.lit ['p', 'r', 'e', 'd', ' '], .number, .lit [' ', 'd', 'n', 'e', 'v', 'i']], .seqs [.lit ['p', 'r', 'e', 'd', ' '], .number, .lit [' ', 'l', 'e', 't', 'o', 'm']], .seqs [.lit ['p', 'r', 'e', 'd', ' '], .number, .lit [' ', 't', 'e', 'd', 'n', 'i']], .seqs [.lit ['p', 'r', 'e', 'd', ' '], .number, .lit [' ', 'u', 'r', 'a', 'm', 'i']], .seqs [.lit ['c', 'e', 'z', ' '], .number, .lit [' ', 'm', 'e', 's', 'e', 'c']], .seqs [.lit ['c', 'e', 'z', ' '], .number, .lit [' ', 'm', 'i', 'n', 'u', 't']], .seqs [.lit ['c', 'e', 'z', ' '], .number, .lit [' ', 't', 'e', 'd', 'e', 'n']], .seqs [.lit ['p', 'r', 'e', 'd', ' '], .number, .lit [' ', 'l', 'e', 't', 'i']], .seqs [.lit ['c', 'e', 'z', ' '], .number, .lit [' ', 'l', 'e', 't', 'o']], .seqs [.lit ['p', 'r', 'e', 'd', ' '], .number, .lit [' ', 'm', 'e', 's']], .seqs [.lit ['p', 'r', 'e', 'd', ' '], .number, .lit [' ', 'm', 'i', 'n']], .seqs [.lit ['p', 'r', 'e', 'd', ' '], .number, .lit [' ', 't', 'e', 'd']], .seqs [.lit ['p', 'r', 'e', 'd', ' '], .number, .lit [' ', 'u', 'r', 'o']], .seqs [.lit ['c', 'e', 'z', ' '], .number, .lit [' ', 'd', 'a', 'n']], .seqs [.lit ['c', 'e', 'z', ' '], .number, .lit [' ', 'd', 'n', 'i']], .seqs [.lit ['c', 'e', 'z', ' '], .number, .lit [' ', 'l', 'e', 't']], .seqs [.lit ['c', 'e', 'z', ' '], .number, .lit [' ', 'm', 'e', 's']], .seqs [.lit ['c', 'e', 'z', ' '], .number, .lit [' ', 'm', 'i', 'n']], .seqs [.lit ['c', 'e', 'z', ' '], .number, .lit [' ', 't', 'e', 'd']], .seqs [.lit ['c', 'e', 'z', ' '], .number, .lit [' ', 'u', 'r', 'o']], .seqs [.lit ['c', 'e', 'z', ' '], .number, .lit [' ', 'u', 'r']], .seqs [.lit ['p', 'r', 'e', 'd', ' '], .number, .lit [' ', 'h']], .seqs [.lit ['p', 'r', 'e', 'd', ' '], .number, .lit [' ', 's']], .seqs [.lit ['c', 'e', 'z', ' '], .number, .lit [' ', 'h']], .seqs [.lit ['c', 'e', 'z', ' '], .number, .lit [' ', 's']]]), .grp 3 (.alts [.eos, .cls true [.letter, .mark, .digit], .lit ['_']])], 3),
  rxExact := some (.seqs [.bos, .grp 1 (.alts [.seqs [.lit ['p', 'r', 'e', 'd', ' '], .number, .lit [' ', 's', 'e', 'k', 'u', 'n', 'd', 'a', 'm', 'i']], .seqs [.lit ['p', 'r', 'e', 'd', ' '], .number, .lit [' ', 'm', 'i', 'n', 'u', 't', 'a', 'm', 'i']], .seqs [.lit ['p', 'r', 'e', 'd', ' '], .number, .lit [' ', 'm', 'e', 's', 'e', 'c', 'e', 'm']], .seqs [.lit ['p', 'r', 'e', 'd', ' '], .number, .lit [' ', 's', 'e', 'k', 'u', 'n', 'd', 'o']], .seqs [.lit ['c', 'e', 'z', ' '], .number, .lit [' ', 'm', 'e', 's', 'e', 'c', 'e', 'v']], .seqs [.lit ['c', 'e', 'z', ' '], .number, .lit [' ', 's', 'e', 'k', 'u', 'n', 'd', 'o']], .seqs [.lit ['p', 'r', 'e', 'd', ' '], .number, .lit [' ', 'd', 'n', 'e', 'v', 'o', 'm']], .seqs [.lit ['p', 'r', 'e', 'd', ' '], .number, .lit [' ', 'm', 'e', 's', 'e', 'c', 'i']], .seqs [.lit ['p', 'r', 'e', 'd', ' '], .number, .lit [' ', 'm', 'i', 'n', 'u', 't', 'o']], .seqs [.lit ['p', 'r', 'e', 'd', ' '], .number, .lit [' ', 't', 'e', 'd', 'n', 'o', 'm']], .seqs [.lit ['c', 'e', 'z', ' '], .number, .lit [' ', 'm', 'i', 'n', 'u', 't', 'o']], .seqs [.lit ['c', 'e', 'z', ' '], .number, .lit [' ', 's', 'e', 'k', 'u', 'n', 'd']], .seqs [.lit ['c', 'e', 'z', ' '], .number, .lit [' ', 't', 'e', 'd', 'n', 'o', 'v']], .seqs [.lit ['p', 'r', 'e', 'd', ' '], .number, .lit [' ', 'd', 'n', 'e', 'v', 'i']], .seqs [.lit ['p', 'r', 'e', 'd', ' '], .number, .lit [' ', 'l', 'e', 't', 'o', 'm']], .seqs [.lit ['p', 'r', 'e', 'd', ' '], .number, .lit [' ', 't', 'e', 'd', 'n', 'i']], .seqs [.lit ['p', 'r', 'e', 'd', ' '], .number, .lit [' ', 'u', 'r', 'a', 'm', 'i']], .seqs [.lit ['c', 'e', 'z', ' '], .number, .lit [' ', 'm', 'e', 's', 'e', 'c']], .seqs [.lit ['c', 'e', 'z', ' '], .number, .lit [' ', 'm', 'i', 'n', 'u', 't']], .seqs [.lit ['c', 'e', 'z', ' '], .number, .lit [' ', 't', 'e', 'd', 'e', 'n']], .seqs [.lit ['p', 'r', 'e', 'd', ' '], .number, .lit [' ', 'l', 'e', 't', 'i']], .seqs [.lit ['c', 'e', 'z', ' '], .number, .lit [' ', 'l', 'e', 't', 'o']], .seqs [.lit ['p', 'r', 'e', 'd', ' '], .number, .lit [' ', 'm', 'e', 's']], .seqs [.lit ['p', 'r', 'e', 'd', ' '], .number, .lit [' ', 'm', 'i', 'n']], .seqs [.lit ['p', 'r', 'e', 'd', ' '], .number, .lit [' ', 't', 'e', 'd']], .seqs [.lit ['p', 'r', 'e', 'd', ' '], .number, .lit [' ', 'u', 'r', 'o']], .seqs [.lit ['c', 'e', 'z', ' '], .number, .lit [' ', 'd', 'a', 'n']], .seqs [.lit ['c', 'e', 'z', ' '], .number, .lit [' ', 'd', 'n', 'i']], .seqs [.lit ['c', 'e', 'z', ' '], .number, .lit [' ', 'l', 'e', 't']], .seqs [.lit ['c', 'e', 'z', ' '], .number, .lit [' ', 'm', 'e', 's']], .seqs [.lit ['c', 'e', 'z', ' '], .number, .lit [' ', 'm', 'i', 'n']], .seqs [.lit ['c', 'e', 'z', ' '], .number, .lit [' ', 't', 'e', 'd']], .seqs [.lit ['c', 'e', 'z', ' '], .number, .lit [' ', 'u', 'r', 'o']], .seqs [.lit ['c', 'e', 'z', ' '], .number, .lit [' ', 'u', 'r']], .seqs [.lit ['p', 'r', 'e', 'd', ' '], .number, .lit [' ', 'h']], .seqs [.lit ['p', 'r', 'e', 'd', ' '], .number, .lit [' ', 's']], .seqs [.lit ['c', 'e', 'z', ' '], .number, .lit [' ', 'h']], .seqs [.lit ['c', 'e', 'z', ' '], .number, .lit [' ', 's']]]), .eos]),
  knownWords :=
   [['n', 'a', 's', 'l', 'e', 'd', 'n', 'j', 'i', ' ', 'm', 'e', 's', 'e', 'c'], ['n', 'a', 's', 'l', 'e', 'd', 'n', 'j', 'i', ' ', 't', 'e', 'd', 'e', 'n'], ['n', 'a', 's', 'l', 'e', 'd', 'n', 'j', 'e', ' ', 'l', 'e', 't', 'o'], ['p', 'r', 'e', 'j', 's', 'n', 'j', 'i', ' ', 'm', 'e', 's', 'e', 'c'], ['p', 'r', 'e', 'j', 's', 'n', 'j', 'i', ' ', 't', 'e', 'd', 'e', 'n'], ['p', 'o', 'n', 'e', 'd', 'e', 'l', 'j', 'e', 'k'], ['s', 'e', 'p', 't', 'e', 'm', 'b', 'e', 'r'], ['t', 'o', ' ', 'm', 'i', 'n', 'u', 't', 'o'], ['v', ' ', 't', 'e', 'j', ' ', 'u', 'r', 'i'], ['d', 'e', 'c', 'e', 'm', 'b', 'e', 'r'], ['d', 'o', 'p', 'o', 'l', 'd', 'n', 'e'], ['n', 'o', 'v', 'e', 'm', 'b', 'e', 'r'], ['p', 'o', 'p', 'o', 'l', 'd', 'n', 'e'], ['t', 'a', ' ', 'm', 'e', 's', 'e', 'c'], ['t', 'a', ' ', 't', 'e', 'd', 'e', 'n'], ['c', 'e', 't', 'r', 't', 'e', 'k'], ['f', 'e', 'b', 'r', 'u', 'a', 'r'], ['n', 'e', 'd', 'e', 'l', 'j', 'a'], ['o', 'k', 't', 'o', 'b', 'e', 'r'], ['s', 'e', 'k', 'u', 'n', 'd', 'a'], ['a', 'v', 'g', 'u', 's', 't'], ['j', 'a', 'n', 'u', 'a', 'r'], ['m', 'i', 'n', 'u', 't', 'a'], ['s', 'o', 'b', 'o', 't', 'a'], ['v', 'c', 'e', 'r', 'a', 'j'], ['a', 'p', 'r', 'i', 'l'], ['d', 'a', 'n', 'e', 's'], ['j', 'u', 'l', 'i', 'j'], ['j', 'u', 'n', 'i', 'j'], ['j', 'u', 't', 'r', 'i'], ['l', 'e', 't', 'o', 's'], ['m', 'a', 'r', 'e', 'c'], ['m', 'e', 's', 'e', 'c'], ['p', 'e', 't', 'e', 'k'], ['s', 'r', 'e', 'd', 'a'], ['t', 'e', 'd', 'e', 'n'], ['t', 'o', 'r', 'e', 'k'], ['l', 'a', 'n', 'i'], ['l', 'e', 't', 'o'], ['z', 'd', 'a', 'j'], ['a', 'p', 'r'], ['a', 'v', 'g'], ['c', 'e', 't'], ['d', 'a', 'n'], ['d', 'e', 'c'], ['d', 'o', 'p'], ['f', 'e', 'b'], ['g', 'm', 't'], ['j', 'a', 'n'], ['j', 'u', 'l'], ['j', 'u', 'n'], ['m', 'a', 'j'], ['m', 'a', 'r'], ['m', 'e', 's'], ['m', 'i', 'n'], ['n', 'e', 'd'], ['n', 'o', 'v'], ['o', 'k', 't'], ['p', 'e', 't'], ['p', 'o', 'n'], ['p', 'o', 'p'], ['s', 'e', 'k'], ['s', 'e', 'p'], ['s', 'o', 'b'], ['s', 'r', 'e'], ['t', 'e', 'd'], ['t', 'o', 'r'], ['u', 'r', 'a'], ['u', 't', 'c'], ['a', 'm'], ['p', 'm'], [' '], ['\''], ['+'], [','], ['-'], ['.'], ['/'], [':'], [';'], ['@'], ['['], [']'], ['h'], ['s'], ['z'], ['|']] }

/-- internal/data/smn.go: `smn_Locale`. -/
def smnLang : LangData := { smnDict with
  knownWords :=
   [['r', 'o', 'o', 'v', 'v', 'a', 'd', 'm', 'a', 'a', 'n', 'u'], ['u', 'đ', 'đ', 'a', 'i', 'v', 'e', 'm', 'a', 'a', 'n', 'u'], ['v', 'a', 's', 't', 'u', 'p', 'p', 'e', 'e', 'i', 'v', 'i'], ['c', 'u', 'a', 'ŋ', 'u', 'i', 'm', 'a', 'a', 'n', 'u'], ['j', 'u', 'o', 'v', 'l', 'a', 'm', 'a', 'a', 'n', 'u'], ['n', 'j', 'u', 'h', 'c', 'a', 'm', 'a', 'a', 'n', 'u'], ['s', 'k', 'a', 'm', 'm', 'a', 'm', 'a', 'a', 'n', 'u'], ['s', 'y', 'e', 'i', 'n', 'i', 'm', 'a', 'a', 'n', 'u'], ['t', 'h', 'i', 's', ' ', 'm', 'i', 'n', 'u', 't', 'e'], ['v', 'a', 's', 't', 'u', 'p', 'p', 'e', 'i', 'v', 'i'], ['c', 'o', 'h', 'c', 'a', 'm', 'a', 'a', 'n', 'u'], ['k', 'u', 'o', 'v', 'a', 'm', 'a', 'a', 'n', 'u'], ['l', 'a', 's', 't', ' ', 'm', 'o', 'n', 't', 'h'], ['m', 'a', 'j', 'e', 'b', 'a', 'a', 'r', 'g', 'a'], ['n', 'e', 'x', 't', ' ', 'm', 'o', 'n', 't', 'h'], ['p', 'a', 's', 'e', 'p', 'e', 'e', 'i', 'v', 'i'], ['p', 'o', 'r', 'g', 'e', 'm', 'a', 'a', 'n', 'u'], ['t', 'h', 'i', 's', ' ', 'm', 'o', 'n', 't', 'h'], ['v', 'u', 'o', 's', 's', 'a', 'a', 'r', 'g', 'a'], ['v', 'y', 'e', 's', 'i', 'm', 'a', 'a', 'n', 'u'], ['k', 'e', 's', 'i', 'm', 'a', 'a', 'n', 'u'], ['l', 'a', 's', 't', ' ', 'w', 'e', 'e', 'k'], ['l', 'a', 's', 't', ' ', 'y', 'e', 'a', 'r'], ['m', 'a', 'j', 'e', 'b', 'a', 'r', 'g', 'a'], ['n', 'e', 'x', 't', ' ', 'w', 'e', 'e', 'k'], ['n', 'e', 'x', 't', ' ', 'y', 'e', 'a', 'r'], ['p', 'a', 's', 'e', 'p', 'e', 'i', 'v', 'i'], ['t', 'h', 'i', 's', ' ', 'h', 'o', 'u', 'r'], ['t', 'h', 'i', 's', ' ', 'w', 'e', 'e', 'k'], ['t', 'h', 'i', 's', ' ', 'y', 'e', 'a', 'r'], ['t', 'u', 'o', 'r', 'a', 's', 't', 'a', 'h'], ['t', 'u', 'o', 'r', 'a', 's', 't', 'u', 'v'], ['v', 'u', 'o', 's', 's', 'a', 'r', 'g', 'a'], ['y', 'e', 's', 't', 'e', 'r', 'd', 'a', 'y'], ['k', 'o', 's', 'k', 'o', 'k', 'k', 'o'], ['l', 'a', 'v', 'u', 'r', 'd', 'a', 'h'], ['l', 'a', 'v', 'u', 'r', 'd', 'u', 'v'], ['t', 'o', 'm', 'o', 'r', 'r', 'o', 'w'], ['k', 'o', 's', 'k', 'o', 'h', 'o'], ['r', 'o', 'o', 'v', 'v', 'a', 'd'], ['c', 'u', 'a', 'ŋ', 'u', 'i'], ['j', 'u', 'o', 'v', 'l', 'a'], ['m', 'i', 'n', 'u', 't', 'e'], ['n', 'j', 'u', 'h', 'c', 'a'], ['s', 'e', 'c', 'o', 'n', 'd'], ['s', 'k', 'a', 'm', 'm', 'a'], ['s', 'y', 'e', 'i', 'n', 'i'], ['c', 'o', 'h', 'c', 'a'], ['k', 'u', 'o', 'v', 'a'], ['m', 'o', 'n', 't', 'h'], ['p', 'o', 'r', 'g', 'e'], ['t', 'o', 'd', 'a', 'y'], ['v', 'y', 'e', 's', 'i'], ['h', 'o', 'u', 'r'], ['k', 'e', 's', 'i'], ['u', 'đ', 'i', 'v'], ['w', 'e', 'e', 'k'], ['y', 'e', 'a', 'r'], ['d', 'a', 'y'], ['g', 'm', 't'], ['k', 'o', 's'], ['l', 'a', 'v'], ['m', 'a', 'j'], ['n', 'o', 'w'], ['p', 'a', 's'], ['t', 'u', 'o'], ['u', 't', 'c'], ['v', 'a', 's'], ['v', 'u', 'o'], ['a', 'm'], ['e', 'p'], ['i', 'p'], ['p', 'm'], [' '], ['\''], ['+'], [','], ['-'], ['.'], ['/'], [':'], [';'], ['@'], ['['], [']'], ['z'], ['|']] }

/-- internal/data/sn.go: `sn_Locale`. -/
def snLang : LangData := { snDict with
  knownWords :=
   [['n', 'y', 'a', 'm', 'a', 'v', 'h', 'u', 'v', 'h', 'u'], ['t', 'h', 'i', 's', ' ', 'm', 'i', 'n', 'u', 't', 'e'], ['c', 'h', 'i', 'k', 'u', 'n', 'g', 'u', 'r', 'u'], ['l', 'a', 's', 't', ' ', 'm', 'o', 'n', 't', 'h'], ['n', 'e', 'x', 't', ' ', 'm', 'o', 'n', 't', 'h'], ['t', 'h', 'i', 's', ' ', 'm', 'o', 'n', 't', 'h'], ['l', 'a', 's', 't', ' ', 'w', 'e', 'e', 'k'], ['l', 'a', 's', 't', ' ', 'y', 'e', 'a', 'r'], ['n', 'e', 'x', 't', ' ', 'w', 'e', 'e', 'k'], ['n', 'e', 'x', 't', ' ', 'y', 'e', 'a', 'r'], ['t', 'h', 'i', 's', ' ', 'h', 'o', 'u', 'r'], ['t', 'h', 'i', 's', ' ', 'w', 'e', 'e', 'k'], ['t', 'h', 'i', 's', ' ', 'y', 'e', 'a', 'r'], ['c', 'h', 'i', 's', 'h', 'a', 'n', 'u'], ['c', 'h', 'i', 'v', 'a', 'b', 'v', 'u'], ['g', 'u', 'm', 'i', 'g', 'u', 'r', 'u'], ['k', 'u', 'b', 'v', 'u', 'm', 'b', 'i'], ['m', 'a', 'n', 'g', 'w', 'a', 'n', 'a'], ['m', 'u', 'g', 'o', 'v', 'e', 'r', 'a'], ['c', 'h', 'i', 'k', 'u', 'm', 'i'], ['c', 'h', 'i', 'p', 'i', 'r', 'i'], ['c', 'h', 'i', 't', 'a', 't', 'u'], ['g', 'u', 'n', 'y', 'a', 'n', 'a'], ['k', 'u', 'k', 'a', 'd', 'z', 'i'], ['m', 'u', 'v', 'h', 'u', 'r', 'o'], ['s', 'e', 'k', 'o', 'n', 'd', 'i'], ['k', 'u', 'r', 'u', 'm', 'e'], ['m', 'b', 'u', 'd', 'z', 'i'], ['m', 'i', 'n', 'e', 't', 'i'], ['m', 'w', 'e', 'd', 'z', 'i'], ['n', 'e', 'z', 'u', 'r', 'o'], ['s', 'v', 'o', 'n', 'd', 'o'], ['c', 'h', 'i', 'n', 'a'], ['n', 'd', 'i', 'r', 'a'], ['n', 'h', 'a', 's', 'i'], ['v', 'h', 'i', 'k', 'i'], ['z', 'v', 'i', 't', 'a'], ['g', 'o', 'r', 'e'], ['z', 'u', 'v', 'a'], ['a', 'w', 'a'], ['c', 'h', 'g'], ['c', 'h', 'k'], ['c', 'h', 'n'], ['c', 'h', 'p'], ['c', 'h', 's'], ['c', 'h', 't'], ['c', 'h', 'v'], ['g', 'm', 't'], ['g', 'u', 'm'], ['g', 'u', 'n'], ['k', 'u', 'b'], ['k', 'u', 'k'], ['k', 'u', 'r'], ['m', 'b', 'u'], ['m', 'u', 'g'], ['m', 'u', 'v'], ['n', 'd', 'i'], ['n', 'o', 'w'], ['n', 'y', 'a'], ['s', 'v', 'o'], ['u', 't', 'c'], ['z', 'v', 'i'], ['a', 'm'], ['p', 'm'], [' '], ['\''], ['+'], [','], ['-'], ['.'], ['/'], [':'], [';'], ['@'], ['['], [']'], ['z'], ['|']] }

/-- internal/data/so.go: `so_Locale`. -/
def soLang : LangData := { soDict with
  knownWords :=
   [['b', 'i', 's', 'h', 'a', ' ', 'l', 'a', 'b', 'a', ' ', 'i', 'y', 'o', ' ', 't', 'o', 'b', 'n', 'a', 'a', 'd'], ['b', 'i', 's', 'h', 'a', ' ', 'k', 'o', 'w', ' ', 'i', 'y', 'o', ' ', 't', 'o', 'b', 'n', 'a', 'a', 'd'], ['b', 'i', 's', 'h', 'a', ' ', 's', 'a', 'd', 'd', 'e', 'x', 'a', 'a', 'd'], ['b', 'i', 's', 'h', 'a', ' ', 's', 'a', 'g', 'a', 'a', 'l', 'a', 'a', 'd'], ['b', 'i', 's', 'h', 'a', ' ', 's', 'i', 'd', 'e', 'e', 'd', 'a', 'a', 'd'], ['b', 'i', 's', 'h', 'a', ' ', 't', 'o', 'd', 'o', 'b', 'a', 'a', 'd'], ['b', 'i', 's', 'h', 'a', ' ', 'k', 'o', 'o', 'b', 'a', 'a', 'd'], ['b', 'i', 's', 'h', 'a', ' ', 's', 'h', 'a', 'n', 'a', 'a', 'd'], ['b', 'i', 's', 'h', 'a', ' ', 't', 'o', 'b', 'n', 'a', 'a', 'd'], ['b', 'i', 's', 'h', 'a', ' ', 'a', 'f', 'r', 'a', 'a', 'd'], ['b', 'i', 's', 'h', 'a', ' ', 'l', 'a', 'b', 'a', 'a', 'd'], ['b', 'i', 's', 'h', 'a', ' ', 'l', 'i', 'x', 'a', 'a', 'd'], ['t', 'h', 'i', 's', ' ', 'm', 'i', 'n', 'u', 't', 'e'], ['l', 'a', 's', 't', ' ', 'm', 'o', 'n', 't', 'h'], ['n', 'e', 'x', 't', ' ', 'm', 'o', 'n', 't', 'h'], ['t', 'h', 'i', 's', ' ', 'm', 'o', 'n', 't', 'h'], ['l', 'a', 's', 't', ' ', 'w', 'e', 'e', 'k'], ['l', 'a', 's', 't', ' ', 'y', 'e', 'a', 'r'], ['n', 'e', 'x', 't', ' ', 'w', 'e', 'e', 'k'], ['n', 'e', 'x', 't', ' ', 'y', 'e', 'a', 'r'], ['t', 'h', 'i', 's', ' ', 'h', 'o', 'u', 'r'], ['t', 'h', 'i', 's', ' ', 'w', 'e', 'e', 'k'], ['t', 'h', 'i', 's', ' ', 'y', 'e', 'a', 'r'], ['k', 'h', 'a', 'm', 'i', 'i', 's'], ['t', 'a', 'l', 'a', 'a', 'd', 'o'], ['a', 'r', 'b', 'a', 'c', 'o'], ['i', 's', 'n', 'i', 'i', 'n'], ['m', 'a', 'a', 'n', 't', 'a'], ['m', 'i', 'n', 'u', 't', 'e'], ['s', 'e', 'c', 'o', 'n', 'd'], ['s', 'h', 'a', 'l', 'a', 'y'], ['b', 'e', 'r', 'r', 'i'], ['j', 'i', 'm', 'c', 'o'], ['m', 'o', 'n', 't', 'h'], ['s', 'a', 'b', 't', 'i'], ['a', 'x', 'a', 'd'], ['h', 'o', 'u', 'r'], ['w', 'e', 'e', 'k'], ['y', 'e', 'a', 'r'], ['a', 'f', 'r'], ['a', 'r', 'b'], ['a', 'x', 'd'], ['d', 'a', 'y'], ['g', 'm', 't'], ['i', 's', 'n'], ['j', 'i', 'm'], ['k', 'h', 'a'], ['k', 'i', 't'], ['k', 'o', 'b'], ['l', 'a', 'b'], ['l', 'i', 't'], ['l', 'i', 'x'], ['n', 'o', 'w'], ['s', 'a', 'b'], ['s', 'a', 'd'], ['s', 'a', 'g'], ['s', 'h', 'a'], ['s', 'i', 'd'], ['t', 'a', 'l'], ['t', 'o', 'b'], ['t', 'o', 'd'], ['u', 't', 'c'], ['a', 'm'], ['g', 'n'], ['p', 'm'], ['s', 'n'], [' '], ['\''], ['+'], [','], ['-'], ['.'], ['/'], [':'], [';'], ['@'], ['['], [']'], ['z'], ['|']] }

/-- internal/data/so.go: `so_DJ_Locale`. -/
def so_DJLang : LangData := so_DJDict

/-- internal/data/so.go: `so_ET_Locale`. -/
def so_ETLang : LangData := so_ETDict

/-- internal/data/so.go: `so_KE_Locale`. -/
def so_KELang : LangData := so_KEDict

/-- internal/data/sq.go: `sq_Locale`. -/
def sqLang : LangData := { sqDict with
  relativeRegexes :=
   [(.seqs [.grp 1 (.number), .lit [' ', 's', 'e', 'k', 'o', 'n', 'd', 'a', ' ', 'm', 'e', ' ', 'p', 'a', 'r', 'e']], [.ref 1, .lit [' ', 's', 'e', 'c', 'o', 'n', 'd', ' ', 'a', 'g', 'o']]),
    (.seqs [.grp 1 (.number), .lit [' ', 's', 'e', 'k', 'o', 'n', 'd', 'e', ' ', 'm', 'e', ' ', 'p', 'a', 'r', 'e']], [.ref 1, .lit [' ', 's', 'e', 'c', 'o', 'n', 'd', ' ', 'a', 'g', 'o']]),
    (.seqs [.grp 1 (.number), .lit [' ', 'm', 'i', 'n', 'u', 't', 'a', ' ', 'm', 'e', ' ', 'p', 'a', 'r', 'e']], [.ref 1, .lit [' ', 'm', 'i', 'n', 'u', 't', 'e', ' ', 'a', 'g', 'o']]),
    (.seqs [.grp 1 (.number), .lit [' ', 'm', 'i', 'n', 'u', 't', 'e', ' ', 'm', 'e', ' ', 'p', 'a', 'r', 'e']], [.ref 1, .lit [' ', 'm', 'i', 'n', 'u', 't', 'e', ' ', 'a', 'g', 'o']]),
    (.seqs [.lit ['p', 'a', 's', ' '], .grp 1 (.number), .lit [' ', 's', 'e', 'k', 'o', 'n', 'd', 'a', 's', 'h']], [.lit ['i', 'n', ' '], .ref 1, .lit [' ', 's', 'e', 'c', 'o', 'n', 'd']]),
    (.seqs [.grp 1 (.number), .lit [' ', 'd', 'i', 't', 'e', ' ', 'm', 'e', ' ', 'p', 'a', 'r', 'e']], [.ref 1, .lit [' ', 'd', 'a', 'y', ' ', 'a', 'g', 'o']]),
    (.seqs [.grp 1 (.number), .lit [' ', 'j', 'a', 'v', 'e', ' ', 'm', 'e', ' ', 'p', 'a', 'r', 'e']], [.ref 1, .lit [' ', 'w', 'e', 'e', 'k', ' ', 'a', 'g', 'o']]),
    (.seqs [.grp 1 (.number), .lit [' ', 'm', 'u', 'a', 'j', ' ', 'm', 'e', ' ', 'p', 'a', 'r', 'e']], [.ref 1, .lit [' ', 'm', 'o', 'n', 't', 'h', ' ', 'a', 'g', 'o']]),
    (.seqs [.grp 1 (.number), .lit [' ', 'v', 'j', 'e', 't', ' ', 'm', 'e', ' ', 'p', 'a', 'r', 'e']], [.ref 1, .lit [' ', 'y', 'e', 'a', 'r', ' ', 'a', 'g', 'o']]),
    (.seqs [.lit ['p', 'a', 's', ' '], .grp 1 (.number), .lit [' ', 'm', 'i', 'n', 'u', 't', 'a', 's', 'h']], [.lit ['i', 'n', ' '], .ref 1, .lit [' ', 'm', 'i', 'n', 'u', 't', 'e']]),
    (.seqs [.grp 1 (.number), .lit [' ', 'm', 'i', 'n', ' ', 'm', 'e', ' ', 'p', 'a', 'r', 'e']], [.ref 1, .lit [' ', 'm', 'i', 'n', 'u', 't', 'e', ' ', 'a', 'g', 'o']]),
    (.seqs [.grp 1 (.number), .lit [' ', 'o', 'r', 'e', ' ', 'm', 'e', ' ', 'p', 'a', 'r', 'e']], [.ref 1, .lit [' ', 'h', 'o', 'u', 'r', ' ', 'a', 'g', 'o']]),
    (.seqs [.grp 1 (.number), .lit [' ', 's', 'e', 'k', ' ', 'm', 'e', ' ', 'p', 'a', 'r', 'e']], [.ref 1, .lit [' ', 's', 'e', 'c', 'o', 'n', 'd', ' ', 'a', 'g', 'o']]),
    (.seqs [.grp 1 (.number), .lit [' ', 'v', 'i', 't', ' ', 'm', 'e', ' ', 'p', 'a', 'r', 'e']], [.ref 1, .lit [' ', 'y', 'e', 'a', 'r', ' ', 'a', 'g', 'o']]),
    (.seqs [.lit ['p', 'a', 's', ' '], .grp 1 (.number), .lit [' ', 's', 'e', 'k', 'o', 'n', 'd', 'e']], [.lit ['i', 'n', ' '], .ref 1, .lit [' ', 's', 'e', 'c', 'o', 'n', 'd']]),
    (.seqs [.lit ['p', 'a', 's', ' '], .grp 1 (.number), .lit [' ', 'v', 'j', 'e', 't', 'e', 's', 'h']], [.lit ['i', 'n', ' '], .ref 1, .lit [' ', 'y', 'e', 'a', 'r']]),
    (.seqs [.lit ['p', 'a', 's', ' '], .grp 1 (.number), .lit [' ', 'd', 'i', 't', 'e', 's', 'h']], [.lit ['i', 'n', ' '], .ref 1, .lit [' ', 'd', 'a', 'y']]),
    (.seqs [.lit ['p', 'a', 's', ' '], .grp 1 (.number), .lit [' ', 'j', 'a', 'v', 'e', 's', 'h']], [.lit ['i', 'n', ' '], .ref 1, .lit [' ', 'w', 'e', 'e', 'k']]),
    (.seqs [.lit ['p', 'a', 's', ' '], .grp 1 (.number), .lit [' ', 'm', 'i', 'n', 'u', 't', 'e']], [.lit ['i', 'n', ' '], .ref 1, .lit [' ', 'm', 'i', 'n', 'u', 't', 'e']]),
    (.seqs [.lit ['p', 'a', 's', ' '], .grp 1 (.number), .lit [' ', 'm', 'u', 'a', 'j', 's', 'h']], [.lit ['i', 'n', ' '], .ref 1, .lit [' ', 'm', 'o', 'n', 't', 'h']]),
    (.seqs [.lit ['p', 'a', 's', ' '], .grp 1 (.number), .lit [' ', 'm', 'u', 'a', 'j', 'i']], [.lit ['i', 'n', ' '], .ref 1, .lit [' ', 'm', 'o', 'n', 't', 'h']]),
    (.seqs [.lit ['p', 'a', 's', ' '], .grp 1 (.number), .lit [' ', 'o', 'r', 'e', 's', 'h']], [.lit ['i', 'n', ' '], .ref 1, .lit [' ', 'h', 'o', 'u', 'r']]),
    (.seqs [.lit ['p', 'a', 's', ' '], .grp 1 (.number), .lit [' ', 'd', 'i', 't', 'e']], [.lit ['i', 'n', ' '], .ref 1, .lit [' ', 'd', 'a', 'y']]),
    (.seqs [.lit ['p', 'a', 's', ' '], .grp 1 (.number), .lit [' ', 'j', 'a', 'v', 'e']], [.lit ['i', 'n', ' '], .ref 1, .lit [' ', 'w', 'e', 'e', 'k']]),
    (.seqs [.lit ['p', 'a', 's', ' '], .grp 1 (.number), .lit [' ', 'v', 'i', 't', 'i']], [.lit ['i', 'n', ' '], .ref 1, .lit [' ', 'y', 'e', 'a', 'r']]),
    (.seqs [.lit ['p', 'a', 's', ' '], .grp 1 (.number), .lit [' ', 'm', 'i', 'n']], [.lit ['i', 'n', ' '], .ref 1, .lit [' ', 'm', 'i', 'n', 'u', 't', 'e']]),
    (.seqs [.lit ['p', 'a', 's', ' '], .grp 1 (.number), .lit [' ', 'o', 'r', 'e']], [.lit ['i', 'n', ' '], .ref 1, .lit [' ', 'h', 'o', 'u', 'r']]),
    (.seqs [.lit ['p', 'a', 's', ' '], .grp 1 (.number), .lit [' ', 's', 'e', 'k']], [.lit ['i', 'n', ' '], .ref 1, .lit [' ', 's', 'e', 'c', 'o', 'n', 'd']])],
  rxCombined := some (.seqs [.grp 1 (.alts [.bos, .cls true [.letter, .mark, .digit], .lit ['_']]), .grp 2 (.alts [.seqs [.number, .lit [' ', 's', 'e', 'k', 'o', 'n', 'd', 'a', ' ', 'm', 'e', ' ', 'p', 'a', 'r', 'e']], .seqs [.number, .lit [' ', 's', 'e', 'k', 'o', 'n', 'd', 'e', ' ', 'm', 'e', ' ', 'p', 'a', 'r', 'e']], .seqs [.number, .lit [' ', 'm', 'i', 'n', 'u', 't', 'a', ' ', 'm', 'e', ' ', 'p', 'a', 'r', 'e']], .seqs [.number, .lit [' ', 'm', 'i', 'n', 'u', 't', 'e', ' ', 'm', 'e', ' ', 'p', 'a', 'r', 'e']], .seqs [.lit ['p', 'a', 's', ' '], .number, .lit [' ', 's', 'e', 'k', 'o', 'n', 'd', 'a', 's', 'h']], .seqs [.number, .lit [' ', 'd', 'i', 't', 'e', ' ', 'm', 'e', ' ', 'p', 'a', 'r', 'e']], .seqs [.number, .lit [' ', 'j', 'a', 'v', 'e', ' ', 'm', 'e', ' ', 'p', 'a', 'r', 'e']], .seqs [.number, .lit [' ', 'm', 'u', 'a', 'j', ' ', 'm', 'e', ' ', 'p', 'a', 'r', 'e']], .seqs [.number, .lit [' ', 'v', 'j', 'e', 't', ' ', 'm', 'e', ' ', 'p', 'a', 'r', 'e']], .seqs [.lit ['p', 'a', 's', ' '], .number, .lit [' ', 'm', 'i', 'n', 'u', 't', 'a', 's', 'h']], .seqs [.number, .lit [' ', 'm', 'i', 'n', ' ', 'm', 'e', ' ', 'p', 'a', 'r', 'e']], .seqs [.number, .lit [' ', 'o', 'r', 'e', ' ', 'm', 'e', ' ', 'p', 'a', 'r', 'e']], .seqs [.number, .lit [' ', 's', 'e', 'k', ' ', 'm', 'e', ' ', 'p', 'a', 'r', 'e']], .seqs [.number, .lit [' ', 'v', 'i', 't', ' ', 'm', 'e', ' ', 'p', 'a', 'r', 'e']], .seqs [.lit ['p', 'a', 's', ' '], .number, .lit [' ', 's', 'e', 'k', 'o', 'n', 'd', 'e']], .seqs [.lit ['p', 'a', 's', ' '], .number, .lit [' ', 'v', 'j', 'e', 't', 'e', 's', 'h']], .seqs [.lit ['p', 'a', 's', ' '], .number, .lit [' ', 'd', 'i', 't', 'e', 's', 'h']], .seqs [.lit ['p', 'a', 's', ' '], .number, .lit [' ', 'j', 'a', 'v', 'e', 's', 'h']], .seqs [.lit ['p', 'a', 's', ' '], .number, .lit [' ', 'm', 'i', 'n', 'u', 't', 'e']], .seqs [.lit ['p', 'a', 's', ' '], .number, .lit [' ', 'm', 'u', 'a', 'j', 's', 'h']], .seqs [.lit ['p', 'a', 's', ' '], .number, .lit [' ', 'm', 'u', 'a', 'j', 'i']], .seqs [.lit ['p', 'a', 's', ' '], .number, .lit [' ', 'o', 'r', 'e', 's', 'h']], .seqs [.lit ['p', 'a', 's', ' '], .number, .lit [' ', 'd', 'i', 't', 'e']], .seqs [.lit ['p', 'a', 's', ' '], .number, .lit [' ', 'j', 'a', 'v', 'e']], .seqs [.lit ['p', 'a', 's', ' '], .number, .lit [' ', 'v', 'i', 't', 'i']], .seqs [.lit ['p', 'a', 's', ' '], .number, .lit [' ', 'm', 'i', 'n']], .seqs [.lit ['p', 'a', 's', ' '], .number, .lit [' ', 'o', 'r', 'e']], .seqs [.lit ['p', 'a', 's', ' '], .number, .lit [' ', 's', 'e', 'k']]]), .grp 3 (.alts [.eos, .cls true [.letter, .mark, .digit], .lit ['_']])], 3),
  rxExact := some (.seqs [.bos, .grp 1 (.alts [.seqs [.number, .lit [' ', 's', 'e', 'k', 'o', 'n', 'd', 'a', ' ', 'm', 'e', ' ', 'p', 'a', 'r', 'e']], .seqs [.number, .lit [' ', 's', 'e', 'k', 'o', 'n', 'd', 'e', ' ', 'm', 'e', ' ', 'p', 'a', 'r', 'e']], .seqs [.number, .lit [' ', 'm', 'i', 'n', 'u', 't', 'a', ' ', 'm', 'e', ' ', 'p', 'a', 'r', 'e']], .seqs [.number, .lit [' ', 'm', 'i', 'n', 'u', 't', 'e', ' ', 'm', 'e', ' ', 'p', 'a', 'r', 'e']], .seqs [.lit ['p', 'a', 's', ' '], .number, .lit [' ', 's', 'e', 'k', 'o', 'n', 'd', 'a', 's', 'h']], .seqs [.number, .lit [' ', 'd', 'i', 't', 'e', ' ', 'm', 'e', ' ', 'p', 'a', 'r', 'e']], .seqs [.number, .lit [' ', 'j', 'a', 'v', 'e', ' ', 'm', 'e', ' ', 'p', 'a', 'r', 'e']], .seqs [.number, .lit [' ', 'm', 'u', 'a', 'j', ' ', 'm', 'e', ' ', 'p', 'a', 'r', 'e']], .seqs [.number, .lit [' ', 'v', 'j', 'e', 't', ' ', 'm', 'e', ' ', 'p', 'a', 'r', 'e']], .seqs [.lit ['p', 'a', 's', ' '], .number, .lit [' ', 'm', 'i', 'n', 'u', 't', 'a', 's', 'h']], .seqs [.number, .lit [' ', 'm', 'i', 'n', ' ', 'm', 'e', ' ', 'p', 'a', 'r', 'e']], .seqs [.number, .lit [' ', 'o', 'r', 'e', ' ', 'm', 'e', ' ', 'p', 'a', 'r', 'e']], .seqs [.number, .lit [' ', 's', 'e', 'k', ' ', 'm', 'e', ' ', 'p', 'a', 'r', 'e']], .seqs [.number, .lit [' ', 'v', 'i', 't', ' ', 'm', 'e', ' ', 'p', 'a', 'r', 'e']], .seqs [.lit ['p', 'a', 's', ' '], .number, .lit [' ', 's', 'e', 'k', 'o', 'n', 'd', 'e']], .seqs [.lit ['p', 'a', 's', ' '], .number, .lit [' ', 'v', 'j', 'e', 't', 'e', 's', 'h']], .seqs [.lit ['p', 'a', 's', ' '], .number, .lit [' ', 'd', 'i', 't', 'e', 's', 'h']], .seqs [.lit ['p', 'a', 's', ' '], .number, .lit [' ', 'j', 'a', 'v', 'e', 's', 'h']], .seqs [.lit ['p', 'a', 's', ' '], .number, .lit [' ', 'm', 'i', 'n', 'u', 't', 'e']], .seqs [.lit ['p', 'a', 's', ' '], .number, .lit [' ', 'm', 'u', 'a', 'j', 's', 'h']], .seqs [.lit ['p', 'a', 's', ' '], .number, .lit [' ', 'm', 'u', 'a', 'j', 'i']], .seqs [.lit ['p', 'a', 's', ' '], .number, .lit [' ', 'o', 'r', 'e', 's', 'h']], .seqs [.lit ['p', 'a', 's', ' '], .number, .lit [' ', 'd', 'i', 't', 'e']], .seqs [.lit ['p', 'a', 's', ' '], .number, .lit [' ', 'j', 'a', 'v', 'e']], .seqs [.lit ['p', 'a', 's', ' '], .number, .lit [' ', 'v', 'i', 't', 'i']], .seqs [.lit ['p', 'a', 's', ' '], .number, .lit [' ', 'm', 'i', 'n']], .seqs [.lit ['p', 'a', 's', ' '], .number, .lit [' ', 'o', 'r', 'e']], .seqs [.lit ['p', 'a', 's', ' '], .number, .lit [' ', 's', 'e', 'k']]]), .eos]),
  knownWords :=
   [['m', 'u', 'a', 'j', 'i', 'n', ' ', 'e', ' ', 'a', 'r', 'd', 'h', 's', 'h', 'e', 'm'], ['j', 'a', 'v', 'e', 'n', ' ', 'e', ' ', 'a', 'r', 'd', 'h', 's', 'h', 'm', 'e'], ['v', 'i', 't', 'i', 'n', ' ', 'e', ' ', 'a', 'r', 'd', 'h', 's', 'h', 'e', 'm'], ['m', 'u', 'a', 'j', 'i', 'n', ' ', 'e', ' ', 'k', 'a', 'l', 'u', 'a', 'r'], ['j', 'a', 'v', 'e', 'n', ' ', 'e', ' ', 'k', 'a', 'l', 'u', 'a', 'r'], ['v', 'i', 't', 'i', 'n', ' ', 'e', ' ', 'k', 'a', 'l', 'u', 'a', 'r'], ['e', ' ', 'p', 'a', 'r', 'a', 'd', 'i', 't', 'e', 's'], ['k', 'e', 't', 'e', ' ', 'm', 'i', 'n', 'u', 't', 'e'], ['e', ' ', 'p', 'a', 's', 'd', 'i', 't', 'e', 's'], ['e', ' ', 'm', 'e', 'r', 'k', 'u', 'r', 'e'], ['k', 'e', 't', 'e', ' ', 'j', 'a', 'v', 'e'], ['k', 'e', 't', 'e', ' ', 'm', 'u', 'a', 'j'], ['e', ' ', 'p', 'r', 'e', 'm', 't', 'e'], ['e', ' ', 's', 'h', 't', 'u', 'n', 'e'], ['k', 'e', 't', 'e', ' ', 'o', 'r', 'e'], ['k', 'e', 't', 'e', ' ', 'v', 'i', 't'], ['p', 'a', 'r', 'a', 'd', 'i', 't', 'e'], ['d', 'h', 'j', 'e', 't', 'o', 'r'], ['e', ' ', 'e', 'n', 'j', 't', 'e'], ['e', ' ', 'm', 'a', 'r', 't', 'e'], ['p', 'a', 's', 'd', 'i', 't', 'e'], ['q', 'e', 'r', 's', 'h', 'o', 'r'], ['s', 'e', 'k', 'o', 'n', 'd', 'e'], ['s', 'h', 't', 'a', 't', 'o', 'r'], ['e', ' ', 'd', 'i', 'e', 'l'], ['e', ' ', 'h', 'e', 'n', 'e'], ['k', 'o', 'r', 'r', 'i', 'k'], ['m', 'i', 'n', 'u', 't', 'e'], ['n', 'e', 'n', 't', 'o', 'r'], ['s', 'h', 'k', 'u', 'r', 't'], ['g', 'u', 's', 'h', 't'], ['j', 'a', 'n', 'a', 'r'], ['n', 'e', 's', 'e', 'r'], ['p', 'r', 'i', 'l', 'l'], ['t', 'e', 't', 'o', 'r'], ['d', 'i', 't', 'e'], ['j', 'a', 'v', 'e'], ['m', 'a', 'r', 's'], ['m', 'u', 'a', 'j'], ['t', 'a', 'n', 'i'], ['d', 'h', 'j'], ['d', 'i', 'e'], ['d', 'j', 'e'], ['e', 'n', 'j'], ['g', 'm', 't'], ['g', 's', 'h'], ['h', 'e', 'n'], ['j', 'a', 'n'], ['k', 'o', 'r'], ['m', 'a', 'j'], ['m', 'a', 'r'], ['m', 'e', 'r'], ['m', 'i', 'n'], ['n', 'e', 'n'], ['o', 'r', 'e'], ['p', 'r', 'e'], ['p', 'r', 'i'], ['q', 'e', 'r'], ['s', 'e', 'k'], ['s', 'h', 'k'], ['s', 'h', 't'], ['s', 'o', 't'], ['t', 'e', 't'], ['u', 't', 'c'], ['v', 'i', 't'], ['a', 'm'], ['p', 'm'], [' '], ['\''], ['+'], [','], ['-'], ['.'], ['/'], [':'], [';'], ['@'], ['['], [']'], ['z'], ['|']] }

/-- internal/data/sq.go: `sq_MK_Locale`. -/
def sq_MKLang : LangData := sq_MKDict

/-- internal/data/sq.go: `sq_XK_Locale`. -/
def sq_XKLang : LangData := sq_XKDict

/-- internal/data/sr-cyrl.go: `sr_Cyrl_Locale`. -/
def sr_CyrlLang : LangData := { sr_CyrlDict with
  relativeRegexes :=
   [(.seqs [.cls false [.rng 'П' 'П', .rng 'п' 'п'], .cls false [.rng 'Р' 'Р', .rng 'р' 'р'], .cls false [.rng 'Е' 'Е', .rng 'е' 'е'], .lit [' '], .grp 1 (.number), .lit [' '], .cls false [.rng 'С' 'С', .rng 'с' 'с', .rng 'ᲃ' 'ᲃ'], .cls false [.rng 'Е' 'Е', .rng 'е' 'е'], .cls false [.rng 'К' 'К', .rng 'к' 'к'], .cls false [.rng 'У' 'У', .rng 'у' 'у'], .cls false [.rng 'Н' 'Н', .rng 'н' 'н'], .cls false [.rng 'Д' 'Д', .rng 'д' 'д', .rng 'ᲁ' 'ᲁ'], .cls false [.rng 'Е' 'Е', .rng 'е' 'е']], [.ref 1, .lit [' ', 's', 'e', 'c', 'o', 'n', 'd', ' ', 'a', 'g', 'o']]),
    (.seqs [.cls false [.rng 'П' 'П', .rng 'п' 'п'], .cls false [.rng 'Р' 'Р', .rng 'р' 'р'], .cls false [.rng 'Е' 'Е', .rng 'е' 'е'], .lit [' '], .grp 1 (.number), .lit [' '], .cls false [.rng 'С' 'С', .rng 'с' 'с', .rng 'ᲃ' 'ᲃ'], .cls false [.rng 'Е' 'Е', .rng 'е' 'е'], .cls false [.rng 'К' 'К', .rng 'к' 'к'], .cls false [.rng 'У' 'У', .rng 'у' 'у'], .cls false [.rng 'Н' 'Н', .rng 'н' 'н'], .cls false [.rng 'Д' 'Д', .rng 'д' 'д', .rng 'ᲁ' 'ᲁ'], .cls false [.rng 'И' 'И', .rng 'и' 'и']], [.ref 1, .lit [' ', 's', 'e', 'c', 'o', 'n', 'd', ' ', 'a', 'g', 'o']]),
    (.seqs [.cls false [.rng 'З' 'З', .rng 'з' 'з'], .cls false [.rng 'А' 'А', .rng 'а' 'а'], .lit [' '], .grp 1 (.number), .lit [' '], .cls false [.rng 'С' 'С', .rng 'с' 'с', .rng 'ᲃ' 'ᲃ'], .cls false [.rng 'Е' 'Е', .rng 'е' 'е'], .cls false [.rng 'К' 'К', .rng 'к' 'к'], .cls false [.rng 'У' 'У', .rng 'у' 'у'], .cls false [.rng 'Н' 'Н', .rng 'н' 'н'], .cls false [.rng 'Д' 'Д', .rng 'д' 'д', .rng 'ᲁ' 'ᲁ'], .cls false [.rng 'И' 'И', .rng 'и' 'и']], [.lit ['i', 'n', ' '], .ref 1, .lit [' ', 's', 'e', 'c', 'o', 'n', 'd']]),
    (.seqs [.cls false [.rng 'З' 'З', .rng 'з' 'з'], .cls false [.rng 'А' 'А', .rng 'а' 'а'], .lit [' '], .grp 1 (.number), .lit [' '], .cls false [.rng 'С' 'С', .rng 'с' 'с', .rng 'ᲃ' 'ᲃ'], .cls false [.rng 'Е' 'Е', .rng 'е' 'е'], .cls false [.rng 'К' 'К', .rng 'к' 'к'], .cls false [.rng 'У' 'У', .rng 'у' 'у'], .cls false [.rng 'Н' 'Н', .rng 'н' 'н'], .cls false [.rng 'Д' 'Д', .rng 'д' 'д', .rng 'ᲁ' 'ᲁ'], .cls false [.rng 'У' 'У', .rng 'у' 'у']], [.lit ['i', 'n', ' '], .ref 1, .lit [' ', 's', 'e', 'c', 'o', 'n', 'd']]),
    (.seqs [.cls false [.rng 'П' 'П', .rng 'п' 'п'], .cls false [.rng 'Р' 'Р', .rng 'р' 'р'], .cls false [.rng 'Е' 'Е', .rng 'е' 'е'], .lit [' '], .grp 1 (.number), .lit [' '], .cls false [.rng 'Г' 'Г', .rng 'г' 'г'], .cls false [.rng 'О' 'О', .rng 'о' 'о', .rng 'ᲂ' 'ᲂ'], .cls false [.rng 'Д' 'Д', .rng 'д' 'д', .rng 'ᲁ' 'ᲁ'], .cls false [.rng 'И' 'И', .rng 'и' 'и'], .cls false [.rng 'Н' 'Н', .rng 'н' 'н'], .cls false [.rng 'А' 'А', .rng 'а' 'а']], [.ref 1, .lit [' ', 'y', 'e', 'a', 'r', ' ', 'a', 'g', 'o']]),
    (.seqs [.cls false [.rng 'П' 'П', .rng 'п' 'п'], .cls false [.rng 'Р' 'Р', .rng 'р' 'р'], .cls false [.rng 'Е' 'Е', .rng 'е' 'е'], .lit [' '], .grp 1 (.number), .lit [' '], .cls false [.rng 'Г' 'Г', .rng 'г' 'г'], .cls false [.rng 'О' 'О', .rng 'о' 'о', .rng 'ᲂ' 'ᲂ'], .cls false [.rng 'Д' 'Д', .rng 'д' 'д', .rng 'ᲁ' 'ᲁ'], .cls false [.rng 'И' 'И', .rng 'и' 'и'], .cls false [.rng 'Н' 'Н', .rng 'н' 'н'], .cls false [.rng 'Е' 'Е', .rng 'е' 'е']], [.ref 1, .lit [' ', 'y', 'e', 'a', 'r', ' ', 'a', 'g', 'o']]),
    (.seqs [.cls false [.rng 'П' 'П', .rng 'п' 'п'], .cls false [.rng 'Р' 'Р', .rng 'р' 'р'], .cls false [.rng 'Е' 'Е', .rng 'е' 'е'], .lit [' '], .grp 1 (.number), .lit [' '], .cls false [.rng 'М' 'М', .rng 'м' 'м'], .cls false [.rng 'Е' 'Е', .rng 'е' 'е'], .cls false [.rng 'С' 'С', .rng 'с' 'с', .rng 'ᲃ' 'ᲃ'], .cls false [.rng 'Е' 'Е', .rng 'е' 'е'], .cls false [.rng 'Ц' 'Ц', .rng 'ц' 'ц'], .cls false [.rng 'А' 'А', .rng 'а' 'а']], [.ref 1, .lit [' ', 'm', 'o', 'n', 't', 'h', ' ', 'a', 'g', 'o']]),
    (.seqs [.cls false [.rng 'П' 'П', .rng 'п' 'п'], .cls false [.rng 'Р' 'Р', .rng 'р' 'р'], .cls false [.rng 'Е' 'Е', .rng 'е' 'е'], .lit [' '], .grp 1 (.number), .lit [' '], .cls false [.rng 'М' 'М', .rng 'м' 'м'], .cls false [.rng 'Е' 'Е', .rng 'е' 'е'], .cls false [.rng 'С' 'С', .rng 'с' 'с', .rng 'ᲃ' 'ᲃ'], .cls false [.rng 'Е' 'Е', .rng 'е' 'е'], .cls false [.rng 'Ц' 'Ц', .rng 'ц' 'ц'], .cls false [.rng 'И' 'И', .rng 'и' 'и']], [.ref 1, .lit [' ', 'm', 'o', 'n', 't', 'h', ' ', 'a', 'g', 'o']]),
    (.seqs [.cls false [.rng 'П' 'П', .rng 'п' 'п'], .cls false [.rng 'Р' 'Р', .rng 'р' 'р'], .cls false [.rng 'Е' 'Е', .rng 'е' 'е'], .lit [' '], .grp 1 (.number), .lit [' '], .cls false [.rng 'М' 'М', .rng 'м' 'м'], .cls false [.rng 'И' 'И', .rng 'и' 'и'], .cls false [.rng 'Н' 'Н', .rng 'н' 'н'], .cls false [.rng 'У' 'У', .rng 'у' 'у'], .cls false [.rng 'Т' 'Т', .rng 'т' 'т', .rng 'ᲄ' 'ᲄ', .rng 'ᲅ' 'ᲅ'], .cls false [.rng 'А' 'А', .rng 'а' 'а']], [.ref 1, .lit [' ', 'm', 'i', 'n', 'u', 't', 'e', ' ', 'a', 'g', 'o']]),
    (.seqs [.cls false [.rng 'П' 'П', .rng 'п' 'п'], .cls false [.rng 'Р' 'Р', .rng 'р' 'р'], .cls false [.rng 'Е' 'Е', .rng 'е' 'е'], .lit [' '], .grp 1 (.number), .lit [' '], .cls false [.rng 'Н' 'Н', .rng 'н' 'н'], .cls false [.rng 'Е' 'Е', .rng 'е' 'е'], .cls false [.rng 'Д' 'Д', .rng 'д' 'д', .rng 'ᲁ' 'ᲁ'], .cls false [.rng 'Е' 'Е', .rng 'е' 'е'], .cls false [.rng 'Љ' 'Љ', .rng 'љ' 'љ'], .cls false [.rng 'А' 'А', .rng 'а' 'а']], [.ref 1, .lit [' ', 'w', 'e', 'e', 'k', ' ', 'a', 'g', 'o']]),
    (.seqs [.cls false [.rng 'П' 'П', .rng 'п' 'п'], .cls false [.rng 'Р' 'Р', .rng 'р' 'р'], .cls false [.rng 'Е' 'Е', .rng 'е' 'е'], .lit [' '], .grp 1 (.number), .lit [' '], .cls false [.rng 'Н' 'Н', .rng 'н' 'н'], .cls false [.rng 'Е' 'Е', .rng 'е' 'е'], .cls false [.rng 'Д' 'Д', .rng 'д' 'д', .rng 'ᲁ' 'ᲁ'], .cls false [.rng 'Е' 'Е', .rng 'е' 'е'], .cls false [.rng 'Љ' 'Љ', .rng 'љ' 'љ'], .cls false [.rng 'Е' 'Е', .rng 'е' 'е']], [.ref 1, .lit [' ', 'w', 'e', 'e', 'k', ' ', 'a', 'g', 'o']]),
    (.seqs [.cls false [.rng 'З' 'З', .rng 'з' 'з'], .cls false [.rng 'А' 'А', .rng 'а' 'а'], .lit [' '], .grp 1 (.number), .lit [' '], .cls false [.rng 'Г' 'Г', .rng 'г' 'г'], .cls false [.rng 'О' 'О', .rng 'о' 'о', .rng 'ᲂ' 'ᲂ'], .cls false [.rng 'Д' 'Д', .rng 'д' 'д', .rng 'ᲁ' 'ᲁ'], .cls false [.rng 'И' 'И', .rng 'и' 'и'], .cls false [.rng 'Н' 'Н', .rng 'н' 'н'], .cls false [.rng 'А' 'А', .rng 'а' 'а']], [.lit ['i', 'n', ' '], .ref 1, .lit [' ', 'y', 'e', 'a', 'r']]),
    (.seqs [.cls false [.rng 'З' 'З', .rng 'з' 'з'], .cls false [.rng 'А' 'А', .rng 'а' 'а'], .lit [' '], .grp 1 (.number), .lit [' '], .cls false [.rng 'Г' 'Г', .rng 'г' 'г'], .cls false [.rng 'О' 'О', .rng 'о' 'о', .rng 'ᲂ' 'ᲂ'], .cls false [.rng 'Д' 'Д', .rng 'д' 'д', .rng 'ᲁ' 'ᲁ'], .cls false [.rng 'И' 'И', .rng 'и' 'и'], .cls false [.rng 'Н' 'Н', .rng 'н' 'н'], .cls false [.rng 'У' 'У', .rng 'у' 'у']], [.lit ['i', 'n', ' '], .ref 1, .lit [' ', 'y', 'e', 'a', 'r']]),
    (.seqs [.cls false [.rng 'З' 'З', .rng 'з' 'з'], .cls false [.rng 'А' 'А', .rng 'а' 'а'], .lit [' '], .grp 1 (.number), .lit [' '], .cls false [.rng 'М' 'М', .rng 'м' 'м'], .cls false [.rng 'Е' 'Е', .rng 'е' 'е'], .cls false [.rng 'С' 'С', .rng 'с' 'с', .rng 'ᲃ' 'ᲃ'], .cls false [.rng 'Е' 'Е', .rng 'е' 'е'], .cls false [.rng 'Ц' 'Ц', .rng 'ц' 'ц'], .cls false [.rng 'И' 'И', .rng 'и' 'и']], [.lit ['i', 'n', ' '], .ref 1, .lit [' ', 'm', 'o', 'n', 't', 'h']]),
    (.seqs [.cls false [.rng 'З' 'З', .rng 'з' 'з'], .cls false [.rng 'А' 'А', .rng 'а' 'а'], .lit [' '], .grp 1 (.number), .lit [' '], .cls false [.rng 'М' 'М', .rng 'м' 'м'], .cls false [.rng 'И' 'И', .rng 'и' 'и'], .cls false [.rng 'Н' 'Н', .rng 'н' 'н'], .cls false [.rng 'У' 'У', .rng 'у' 'у'], .cls false [.rng 'Т' 'Т', .rng 'т' 'т', .rng 'ᲄ' 'ᲄ', .rng 'ᲅ' 'ᲅ'], .cls false [.rng 'А' 'А', .rng 'а' 'а']], [.lit ['i', 'n', ' '], .ref 1, .lit [' ', 'm', 'i', 'n', 'u', 't', 'e']]),
    (.seqs [.cls false [.rng 'З' 'З', .rng 'з' 'з'], .cls false [.rng 'А' 'А', .rng 'а' 'а'], .lit [' '], .grp 1 (.number), .lit [' '], .cls false [.rng 'Н' 'Н', .rng 'н' 'н'], .cls false [.rng 'Е' 'Е', .rng 'е' 'е'], .cls false [.rng 'Д' 'Д', .rng 'д' 'д', .rng 'ᲁ' 'ᲁ'], .cls false [.rng 'Е' 'Е', .rng 'е' 'е'], .cls false [.rng 'Љ' 'Љ', .rng 'љ' 'љ'], .cls false [.rng 'А' 'А', .rng 'а' 'а']], [.lit ['i', 'n', ' '], .ref 1, .lit [' ', 'w', 'e', 'e', 'k']]),
    (.seqs [.cls false [.rng 'З' 'З', .rng 'з' 'з'], .cls false [.rng 'А' 'А', .rng 'а' 'а'], .lit [' '], .grp 1 (.number), .lit [' '], .cls false [.rng 'Н' 'Н', .rng 'н' 'н'], .cls false [.rng 'Е' 'Е', .rng 'е' 'е'], .cls false [.rng 'Д' 'Д', .rng 'д' 'д', .rng 'ᲁ' 'ᲁ'], .cls false [.rng 'Е' 'Е', .rng 'е' 'е'], .cls false [.rng 'Љ' 'Љ', .rng 'љ' 'љ'], .cls false [.rng 'У' 'У', .rng 'у' 'у']], [.lit ['i', 'n', ' '], .ref 1, .lit [' ', 'w', 'e', 'e', 'k']]),
    (.seqs [.cls false [.rng 'З' 'З', .rng 'з' 'з'], .cls false [.rng 'А' 'А', .rng 'а' 'а'], .lit [' '], .grp 1 (.number), .lit [' '], .cls false [.rng 'М' 'М', .rng 'м' 'м'], .cls false [.rng 'Е' 'Е', .rng 'е' 'е'], .cls false [.rng 'С' 'С', .rng 'с' 'с', .rng 'ᲃ' 'ᲃ'], .cls false [.rng 'Е' 'Е', .rng 'е' 'е'], .cls false [.rng 'Ц' 'Ц', .rng 'ц' 'ц']], [.lit ['i', 'n', ' '], .ref 1, .lit [' ', 'm', 'o', 'n', 't', 'h']]),
    (.seqs [.cls false [.rng 'З' 'З', .rng 'з' 'з'], .cls false [.rng 'А' 'А', .rng 'а' 'а'], .lit [' '], .grp 1 (.number), .lit [' '], .cls false [.rng 'М' 'М', .rng 'м' 'м'], .cls false [.rng 'И' 'И', .rng 'и' 'и'], .cls false [.rng 'Н' 'Н', .rng 'н' 'н'], .cls false [.rng 'У' 'У', .rng 'у' 'у'], .cls false [.rng 'Т' 'Т', .rng 'т' 'т', .rng 'ᲄ' 'ᲄ', .rng 'ᲅ' 'ᲅ']], [.lit ['i', 'n', ' '], .ref 1, .lit [' ', 'm', 'i', 'n', 'u', 't', 'e']]),
    (.seqs [.cls false [.rng 'П' 'П', .rng 'п' 'п'], .cls false [.rng 'Р' 'Р', .rng 'р' 'р'], .cls false [.rng 'Е' 'Е', .rng 'е' 'е'], .lit [' '], .grp 1 (.number), .lit [' '], .cls false [.rng 'Д' 'Д', .rng 'д' 'д', .rng 'ᲁ' 'ᲁ'], .cls false [.rng 'А' 'А', .rng 'а' 'а'], .cls false [.rng 'Н' 'Н', .rng 'н' 'н'], .cls false [.rng 'А' 'А', .rng 'а' 'а']], [.ref 1, .lit [' ', 'd', 'a', 'y', ' ', 'a', 'g', 'o']]),
    (.seqs [.cls false [.rng 'П' 'П', .rng 'п' 'п'], .cls false [.rng 'Р' 'Р', .rng 'р' 'р'], .cls false [.rng 'Е' 'Е', .rng 'е' 'е'], .lit [' '], .grp 1 (.number), .lit [' '], .cls false [.rng 'С' 'С', .rng 'с' 'с', .rng 'ᲃ' 'ᲃ'], .cls false [.rng 'А' 'А', .rng 'а' 'а'], .cls false [.rng 'Т' 'Т', .rng 'т' 'т', .rng 'ᲄ' 'ᲄ', .rng 'ᲅ' 'ᲅ'], .cls false [.rng 'А' 'А', .rng 'а' 'а']], [.ref 1, .lit [' ', 'h', 'o', 'u', 'r', ' ', 'a', 'g', 'o']]),
    (.seqs [.cls false [.rng 'П' 'П', .rng 'п' 'п'], .cls false [.rng 'Р' 'Р', .rng 'р' 'р'], .cls false [.rng 'Е' 'Е', .rng 'е' 'е'], .lit [' '], .grp 1 (.number), .lit [' '], .cls false [.rng 'С' 'С', .rng 'с' 'с', .rng 'ᲃ' 'ᲃ'], .cls false [.rng 'А' 'А', .rng 'а' 'а'], .cls false [.rng 'Т' 'Т', .rng 'т' 'т', .rng 'ᲄ' 'ᲄ', .rng 'ᲅ' 'ᲅ'], .cls false [.rng 'И' 'И', .rng 'и' 'и']], [.ref 1, .lit [' ', 'h', 'o', 'u', 'r', ' ', 'a', 'g', 'o']]),
    (.seqs [.cls false [.rng 'З' 'З', .rng 'з' 'з'], .cls false [.rng 'А' 'А', .rng 'а' 'а'], .lit [' '], .grp 1 (.number), .lit [' '], .cls false [.rng 'Д' 'Д', .rng 'д' 'д', .rng 'ᲁ' 'ᲁ'], .cls false [.rng 'А' 'А', .rng 'а' 'а'], .cls false [.rng 'Н' 'Н', .rng 'н' 'н'], .cls false [.rng 'А' 'А', .rng 'а' 'а']], [.lit ['i', 'n', ' '], .ref 1, .lit [' ', 'd', 'a', 'y']]),
    (.seqs [.cls false [.rng 'З' 'З', .rng 'з' 'з'], .cls false [.rng 'А' 'А', .rng 'а' 'а'], .lit [' '], .grp 1 (.number), .lit [' '], .cls false [.rng 'С' 'С', .rng 'с' 'с', .rng 'ᲃ' 'ᲃ'], .cls false [.rng 'А' 'А', .rng 'а' 'а'], .cls false [.rng 'Т' 'Т', .rng 'т' 'т', .rng 'ᲄ' 'ᲄ', .rng 'ᲅ' 'ᲅ'], .cls false [.rng 'И' 'И', .rng 'и' 'и']], [.lit ['i', 'n', ' '], .ref 1, .lit [' ', 'h', 'o', 'u', 'r']]),
    (.seqs [.cls false [.rng 'П' 'П', .rng 'п' 'п'], .cls false [.rng 'Р' 'Р', .rng 'р' 'р'], .cls false [.rng 'Е' 'Е', .rng 'е' 'е'], .lit [' '], .grp 1 (.number), .lit [' '], .cls false [.rng 'Г' 'Г', .rng 'г' 'г'], .cls false [.rng 'О' 'О', .rng 'о' 'о', .rng 'ᲂ' 'ᲂ'], .cls false [.rng 'Д' 'Д', .rng 'д' 'д', .rng 'ᲁ' 'ᲁ']], [.ref 1, .lit [' ', 'y', 'e', 'a', 'r', ' ', 'a', 'g', 'o']]),
    (.seqs [.cls false [.rng 'П' 'П', .rng 'п' 'п'], .cls false [.rng 'Р' 'Р', .rng 'р' 'р'], .cls false [.rng 'Е' 'Е', .rng 'е' 'е'], .lit [' '], .grp 1 (.number), .lit [' '], .cls false [.rng 'М' 'М', .rng 'м' 'м'], .cls false [.rng 'Е' 'Е', .rng 'е' 'е'], .cls false [.rng 'С' 'С', .rng 'с' 'с', .rng 'ᲃ' 'ᲃ']], [.ref 1, .lit [' ', 'm', 'o', 'n', 't', 'h', ' ', 'a', 'g', 'o']]),
    (.seqs [.cls false [.rng 'П' 'П', .rng 'п' 'п'], .cls false [.rng 'Р' 'Р', .rng 'р' 'р'], .cls false [.rng 'Е' 'Е', .rng 'е' 'е'], .lit [' '], .grp 1 (.number), .lit [' '], .cls false [.rng 'М' 'М', .rng 'м' 'м'], .cls false [.rng 'И' 'И', .rng 'и' 'и'], .cls false [.rng 'Н' 'Н', .rng 'н' 'н']], [.ref 1, .lit [' ', 'm', 'i', 'n', 'u', 't', 'e', ' ', 'a', 'g', 'o']]),
    (.seqs [.cls false [.rng 'П' 'П', .rng 'п' 'п'], .cls false [.rng 'Р' 'Р', .rng 'р' 'р'], .cls false [.rng 'Е' 'Е', .rng 'е' 'е'], .lit [' '], .grp 1 (.number), .lit [' '], .cls false [.rng 'Н' 'Н', .rng 'н' 'н'], .cls false [.rng 'Е' 'Е', .rng 'е' 'е'], .cls false [.rng 'Д' 'Д', .rng 'д' 'д', .rng 'ᲁ' 'ᲁ']], [.ref 1, .lit [' ', 'w', 'e', 'e', 'k', ' ', 'a', 'g', 'o']]),
    (.seqs [.cls false [.rng 'П' 'П', .rng 'п' 'п'], .cls false [.rng 'Р' 'Р', .rng 'р' 'р'], .cls false [.rng 'Е' 'Е', .rng 'е' 'е'], .lit [' '], .grp 1 (.number), .lit [' '], .cls false [.rng 'С' 'С', .rng 'с' 'с', .rng 'ᲃ' 'ᲃ'], .cls false [.rng 'Е' 'Е', .rng 'е' 'е'], .cls false [.rng 'К' 'К', .rng 'к' 'к']], [.ref 1, .lit [' ', 's', 'e', 'c', 'o', 'n', 'd', ' ', 'a', 'g', 'o']]),
    (.seqs [.cls false [.rng 'З' 'З', .rng 'з' 'з'], .cls false [.rng 'А' 'А', .rng 'а' 'а'], .lit [' '], .grp 1 (.number), .lit [' '], .cls false [.rng 'Г' 'Г', .rng 'г' 'г'], .cls false [.rng 'О' 'О', .rng 'о' 'о', .rng 'ᲂ' 'ᲂ'], .cls false [.rng 'Д' 'Д', .rng 'д' 'д', .rng 'ᲁ' 'ᲁ']], [.lit ['i', 'n', ' '], .ref 1, .lit [' ', 'y', 'e', 'a', 'r']]),
    (.seqs [.cls false [.rng 'З' 'З', .rng 'з' 'з'], .cls false [.rng 'А' 'А', .rng 'а' 'а'], .lit [' '], .grp 1 (.number), .lit [' '], .cls false [.rng 'Д' 'Д', .rng 'д' 'д', .rng 'ᲁ' 'ᲁ'], .cls false [.rng 'А' 'А', .rng 'а' 'а'], .cls false [.rng 'Н' 'Н', .rng 'н' 'н']], [.lit ['i', 'n', ' '], .ref 1, .lit [' ', 'd', 'a', 'y']]),
    (.seqs [.cls false [.rng 'З' 'З', .rng 'з' 'з'], .cls false [.rng 'А' 'А', .rng 'а' 'а'], .lit [' '], .grp 1 (.number), .lit [' '], .cls false [.rng 'М' 'М', .rng 'м' 'м'], .cls false [.rng 'Е' 'Е', .rng 'е' 'е'], .cls false [.rng 'С' 'С', .rng 'с' 'с', .rng 'ᲃ' 'ᲃ']], [.lit ['i', 'n', ' '], .ref 1, .lit [' ', 'm', 'o', 'n', 't', 'h']]),
    (.seqs [.cls false [.rng 'З' 'З', .rng 'з' 'з'], .cls false [.rng 'А' 'А', .rng 'а' 'а'], .lit [' '], .grp 1 (.number), .lit [' '], .cls false [.rng 'М' 'М', .rng 'м' 'м'], .cls false [.rng 'И' 'И', .rng 'и' 'и'], .cls false [.rng 'Н' 'Н', .rng 'н' 'н']], [.lit ['i', 'n', ' '], .ref 1, .lit [' ', 'm', 'i', 'n', 'u', 't', 'e']]),
    (.seqs [.cls false [.rng 'З' 'З', .rng 'з' 'з'], .cls false [.rng 'А' 'А', .rng 'а' 'а'], .lit [' '], .grp 1 (.number), .lit [' '], .cls false [.rng 'Н' 'Н', .rng 'н' 'н'], .cls false [.rng 'Е' 'Е', .rng 'е' 'е'], .cls false [.rng 'Д' 'Д', .rng 'д' 'д', .rng 'ᲁ' 'ᲁ']], [.lit ['i', 'n', ' '], .ref 1, .lit [' ', 'w', 'e', 'e', 'k']]),
    (.seqs [.cls false [.rng 'З' 'З', .rng 'з' 'з'], .cls false [.rng 'А' 'А', .rng 'а' 'а'], .lit [' '], .grp 1 (.number), .lit [' '], .cls false [.rng 'С' 'С', .rng 'с' 'с', .rng 'ᲃ' 'ᲃ'], .cls false [.rng 'А' 'А', .rng 'а' 'а'], .cls false [.rng 'Т' 'Т', .rng 'т' 'т', .rng 'ᲄ' 'ᲄ', .rng 'ᲅ' 'ᲅ']], [.lit ['i', 'n', ' '], .ref 1, .lit [' ', 'h', 'o', 'u', 'r']]),
    (.seqs [.cls false [.rng 'З' 'З', .rng 'з' 'з'], .cls false [.rng 'А' 'А', .rng 'а' 'а'], .lit [' '], .grp 1 (.number), .lit [' '], .cls false [.rng 'С' 'С', .rng 'с' 'с', .rng 'ᲃ' 'ᲃ'], .cls false [.rng 'Е' 'Е', .rng 'е' 'е'], .cls false [.rng 'К' 'К', .rng 'к' 'к']], [.lit ['i', 'n', ' '], .ref 1, .lit [' ', 's', 'e', 'c', 'o', 'n', 'd']]),
    (.seqs [.cls false [.rng 'П' 'П', .rng 'п' 'п'], .cls false [.rng 'Р' 'Р', .rng 'р' 'р'], .cls false [.rng 'Е' 'Е', .rng 'е' 'е'], .lit [' '], .grp 1 (.number), .lit [' '], .cls false [.rng 'Г' 'Г', .rng 'г' 'г']], [.ref 1, .lit [' ', 'y', 'e', 'a', 'r', ' ', 'a', 'g', 'o']]),
    (.seqs [.cls false [.rng 'П' 'П', .rng 'п' 'п'], .cls false [.rng 'Р' 'Р', .rng 'р' 'р'], .cls false [.rng 'Е' 'Е', .rng 'е' 'е'], .lit [' '], .grp 1 (.number), .lit [' '], .cls false [.rng 'Д' 'Д', .rng 'д' 'д', .rng 'ᲁ' 'ᲁ']], [.ref 1, .lit [' ', 'd', 'a', 'y', ' ', 'a', 'g', 'o']]),
    (.seqs [.cls false [.rng 'П' 'П', .rng 'п' 'п'], .cls false [.rng 'Р' 'Р', .rng 'р' 'р'], .cls false [.rng 'Е' 'Е', .rng 'е' 'е'], .lit [' '], .grp 1 (.number), .lit [' '], .cls false [.rng 'М' 'М', .rng 'м' 'м']], [.ref 1, .lit [' ', 'm', 'o', 'n', 't', 'h', ' ', 'a', 'g', 'o']]),
    (.seqs [.cls false [.rng 'П' 'П', .rng 'п' 'п'], .cls false [.rng 'Р' 'Р', .rng 'р' 'р'], .cls false [.rng 'Е' 'Е', .rng 'е' 'е'], .lit [' '], .grp 1 (.number), .lit [' '], .cls false [.rng 'Н' 'Н', .rng 'н' 'н']], [.ref 1, .lit [' ', 'w', 'e', 'e', 'k', ' ', 'a', 'g', 'o']]),
    (.seqs [.cls false [.rng 'П' 'П', .rng 'п' 'п'], .cls false [.rng 'Р' 'Р', .rng 'р' 'р'], .cls false [.rng 'Е' 'Е', .rng 'е' 'е'], .lit [' '], .grp 1 (.number), .lit [' '], .cls false [.rng 'С' 'С', .rng 'с' 'с', .rng 'ᲃ' 'ᲃ']], [.ref 1, .lit [' ', 's', 'e', 'c', 'o', 'n', 'd', ' ', 'a', 'g', 'o']]),
    (.seqs [.cls false [.rng 'П' 'П', .rng 'п' 'п'], .cls false [.rng 'Р' 'Р', .rng 'р' 'р'], .cls false [.rng 'Е' 'Е', .rng 'е' 'е'], .lit [' '], .grp 1 (.number), .lit [' '], .cls false [.rng 'Ч' 'Ч', .rng 'ч' 'ч']], [.ref 1, .lit [' ', 'h', 'o', 'u', 'r', ' ', 'a', 'g', 'o']]),
    (.seqs [.cls false [.rng 'З' 'З', .rng 'з' 'з'], .cls false [.rng 'А' 'А', .rng 'а' 'а'], .lit [' '], .grp 1 (.number), .lit [' '], .cls false [.rng 'Г' 'Г', .rng 'г' 'г']], [.lit ['i', 'n', ' '], .ref 1, .lit [' ', 'y', 'e', 'a', 'r']]),
    (.seqs [.cls false [.rng 'З' 'З', .rng 'з' 'з'], .cls false [.rng 'А' 'А', .rng 'а' 'а'], .lit [' '], .grp 1 (.number), .lit [' '], .cls false [.rng 'Д' 'Д', .rng 'д' 'д', .rng 'ᲁ' 'ᲁ']], [.lit ['i', 'n', ' '], .ref 1, .lit [' ', 'd', 'a', 'y']]),
    (.seqs [.cls false [.rng 'З' 'З', .rng 'з' 'з'], .cls false [.rng 'А' 'А', .rng 'а' 'а'], .lit [' '], .grp 1 (.number), .lit [' '], .cls false [.rng 'М' 'М', .rng 'м' 'м']], [.lit ['i', 'n', ' '], .ref 1, .lit [' ', 'm', 'o', 'n', 't', 'h']]),
    (.seqs [.cls false [.rng 'З' 'З', .rng 'з' 'з'], .cls false [.rng 'А' 'А', .rng 'а' 'а'], .lit [' '], .grp 1 (.number), .lit [' '], .cls false [.rng 'Н' 'Н', .rng 'н' 'н']], [.lit ['i', 'n', ' '], .ref 1, .lit [' ', 'w', 'e', 'e', 'k']]),
    (.seqs [.cls false [.rng 'З' 'З', .rng 'з' 'з'], .cls false [.rng 'А' 'А', .rng 'а' 'а'], .lit [' '], .grp 1 (.number), .lit [' '], .cls false [.rng 'С' 'С', .rng 'с' 'с', .rng 'ᲃ' 'ᲃ']], [.lit ['i', 'n', ' '], .ref 1, .lit [' ', 's', 'e', 'c', 'o', 'n', 'd']]),
    (.seqs [.cls false [.rng 'З' 'З', .rng 'з' 'з'], .cls false [.rng 'А' 'А', .rng 'а' 'а'], .lit [' '], .grp 1 (.number), .lit [' '], .cls false [.rng 'Ч' 'Ч', .rng 'ч' 'ч']], [.lit ['i', 'n', ' '], .ref 1, .lit [' ', 'h', 'o', 'u', 'r']])],
  rxCombined := some (.seqs [.grp 1 (.alts [.bos, .cls true [.letter, .mark, .digit], .lit ['_']]), .grp 2 (.alts [.seqs [.cls false [.rng 'П' 'П', .rng 'п' 'п'], .cls false [.rng 'Р' 'Р', .rng 'р' 'р'], .cls false [.rng 'Е' 'Е', .rng 'е' 'е'], .lit [' '], .number, .lit [' '], .cls false [.rng 'С' 'С', .rng 'с' 'с', .rng 'ᲃ' 'ᲃ'], .cls false [.rng 'Е' 'Е', .rng 'е' 'е'], .cls false [.rng 'К' 'К', .rng 'к' 'к'], .cls false [.rng 'У' 'У', .rng 'у' 'у'], .cls false [.rng 'Н' 'Н', .rng 'н' 'н'], .cls false [.rng 'Д' 'Д', .rng 'д' 'д', .rng 'ᲁ' 'ᲁ'], .cls false [.rng 'Е' 'Е', .rng 'е' 'е']], .seqs [.cls false [.rng 'П' 'П', .rng 'п' 'п'], .cls false [.rng 'Р' 'Р', .rng 'р' 'р'], .cls false [.rng 'Е' 'Е', .rng 'е' 'е'], .lit [' '], .number, .lit [' '], .cls false [.rng 'С' 'С', .rng 'с' 'с', .rng 'ᲃ' 'ᲃ'], .cls false [.rng 'Е' 'Е', .rng 'е' 'е'], .cls false [.rng 'К' 'К', .rng 'к' 'к'], .cls false [.rng 'У' 'У', .rng 'у' 'у'], .cls false [.rng 'Н' 'Н', .rng 'н' 'н'], .cls false [.rng 'Д' 'Д', .rng 'д' 'д', .rng 'ᲁ' 'ᲁ'], .cls false [.rng 'И' 'И', .rng 'и' 'и']], .seqs [.cls false [.rng 'З' 'З', .rng 'з' 'з'], .cls false [.rng 'А' 'А', .rng 'а' 'а'], .lit [' '], .number, .lit [' '], .cls false [.rng 'С' 'С', .rng 'с' 'с', .rng 'ᲃ' 'ᲃ'], .cls false [.rng 'Е' 'Е', .rng 'е' 'е'], .cls false [.rng 'К' 'К', .rng 'к' 'к'], .cls false [.rng 'У' 'У', .rng 'у' 'у'], .cls false [.rng 'Н' 'Н', .rng 'н' 'н'], .cls false [.rng 'Д' 'Д', .rng 'д' 'д', .rng 'ᲁ' 'ᲁ'], .cls false [.rng 'И' 'И', .rng 'и' 'и']], .seqs [.cls false [.rng 'З' 'З', .rng 'з' 'з'], .cls false [.rng 'А' 'А', .rng 'а' 'а'], .lit [' '], .number, .lit [' '], .cls false [.rng 'С' 'С', .rng 'с' 'с', .rng 'ᲃ' 'ᲃ'], .cls false [.rng 'Е' 'Е', .rng 'е' 'е'], .cls false [.rng 'К' 'К', .rng 'к' 'к'], .cls false [.rng 'У' 'У', .rng 'у' 'у'], .cls false [.rng 'Н' 'Н', .rng 'н' 'н'], .cls false [.rng 'Д' 'Д', .rng 'д' 'д', .rng 'ᲁ' 'ᲁ'], .cls false [.rng 'У' 'У', .rng 'у' 'у']], .seqs [.cls false [.rng 'П' 'П', .rng 'п' 'п'], .cls false [.rng 'Р' 'Р', .rng 'р' 'р'], .cls false [.rng 'Е' 'Е', .rng 'е' 'е'], .lit [' '], .number, .lit [' '], .cls false [.rng 'Г' 'Г', .rng 'г' 'г'], .cls false [.rng 'О' 'О', .rng 'о' 'о', .rng 'ᲂ' 'ᲂ'], .cls false [.rng 'Д' 'Д', .rng 'д' 'д', .rng 'ᲁ' 'ᲁ'], .cls false [.rng 'И' 'И', .rng 'и' 'и'], .cls false [.rng 'Н' 'Н', .rng 'н' 'н'], .cls false [.rng 'А' 'А', .rng 'а' 'а']], .seqs [.cls false [.rng 'П' 'П', .rng 'п' 'п'], .cls false [.rng 'Р' 'Р', .rng 'р' 'р'], .cls false [.rng 'Е' 'Е', .rng 'е' 'е'], .lit [' '], .number, .lit [' '], .cls false [.rng 'Г' 'Г', .rng 'г' 'г'], .cls false [.rng 'О' 'О', .rng 'о' 'о', .rng 'ᲂ' 'ᲂ'], .cls false [.rng 'Д' 'Д', .rng 'д' 'д', .rng 'ᲁ' 'ᲁ'], .cls false [.rng 'И' 'И', .rng 'и' 'и'], .cls false [.rng 'Н' 'Н', .rng 'н' 'н'], .cls false [.rng 'Е' 'Е', .rng 'е' 'е']], .seqs [.cls false [.rng 'П' 'П', .rng 'п' 'п'], .cls false [.rng 'Р' 'Р', .rng 'р' 'р'], .cls false [.rng 'Е' 'Е', .rng 'е' 'е'], .lit [' '], .number, .lit [' '], .cls false [.rng 'М' 'М', .rng 'м' 'м'], .cls false [.rng 'Е' 'Е', .rng 'е' 'е'], .cls false [.rng 'С' 'С', .rng 'с' 'с', .rng 'ᲃ' 'ᲃ'], .cls false [.rng 'Е' 'Е', .rng 'е' 'е'], .cls false [.rng 'Ц' 'Ц', .rng 'ц' 'ц'], .cls false [.rng 'А' 'А', .rng 'а' 'а']], .seqs [.cls false [.rng 'П' 'П', .rng 'п' 'п'], .cls false [.rng 'Р' 'Р', .rng 'р' 'р'], .cls false [.rng 'Е' 'Е', .rng 'е' 'е'], .lit [' '], .number, .lit [' '], .cls false [.rng 'М' 'М', .rng 'м' 'м'], .cls false [.rng 'Е' 'Е', .rng 'е' 'е'], .cls false [.rng 'С' 'С', .rng 'с' 'с', .rng 'ᲃ' 'ᲃ'], .cls false [.rng 'Е' 'Е', .rng 'е' 'е'], .cls false [.rng 'Ц' 'Ц', .rng 'ц' 'ц'], .cls false [.rng 'И' 'И', .rng 'и' 'и']], .seqs [.cls false [.rng 'П' 'П', .rng 'п' 'п'], .cls false [.rng 'Р' 'Р', .rng 'р' 'р'], .cls false [.rng 'Е' 'Е', .rng 'е' 'е'], .lit [' '], .number, .lit [' '], .cls false [.rng 'М' 'М', .rng 'м' 'м'], .cls false [.rng 'И' 'И', .rng 'и' 'и'], .cls false [.rng 'Н' 'Н', .rng 'н' 'н'], .cls false [.rng 'У' 'У', .rng 'у' 'у'], .cls false [.rng 'Т' 'Т', .rng 'т' 'т', .rng 'ᲄ' 'ᲄ', .rng 'ᲅ' 'ᲅ'], .cls false [.rng 'А' 'А', .rng 'а' 'а']], .seqs [.cls false [.rng 'П' 'П', .rng 'п' 'п'], .cls false [.rng 'Р' 'Р', .rng 'р' 'р'], .cls false [.rng 'Е' 'Е', .rng 'е' 'е'], .lit [' '], .number, .lit [' '], .cls false [.rng 'Н' 'Н', .rng 'н' 'н'], .cls false [.rng 'Е' 'Е', .rng 'е' 'е'], .cls false [.rng 'Д' 'Д', .rng 'д' 'д', .rng 'ᲁ' 'ᲁ'], .cls false [.rng 'Е' 'Е', .rng 'е' 'е'], .cls false [.rng 'Љ' 'Љ', .rng 'љ' 'љ'], .cls false [.rng 'А' 'А', .rng 'а' 'а']], .seqs [.cls false [.rng 'П' 'П', .rng 'п' 'п'], .cls false [.rng 'Р' 'Р', .rng 'р' 'р'], .cls false [.rng 'Е' 'Е', .rng 'е' 'е'], .lit [' '], .number, .lit [' '], .cls false [.rng 'Н' 'Н', .rng 'н' 'н'], .cls false [.rng 'Е' 'Е', .rng 'е' 'е'], .cls false [.rng 'Д' 'Д', .rng 'д' 'д', .rng 'ᲁ' 'ᲁ'], .cls false [.rng 'Е' 'Е', .rng 'е' 'е'], .cls false [.rng 'Љ' 'Љ', .rng 'љ' 'љ'], .cls false [.rng 'Е' 'Е', .rng 'е' 'е']], .seqs [.cls false [.rng 'З' 'З', .rng 'з' 'з'], .cls false [.rng 'А' 'А', .rng 'а' 'а'], .lit [' '], .number, .lit [' '], .cls false [.rng 'Г' 'Г', .rng 'г' 'г'], .cls false [.rng 'О' 'О', .rng 'о' 'о', .rng 'ᲂ' 'ᲂ'], .cls false [.rng 'Д' 'Д', .rng 'д' 'д', .rng 'ᲁ' 'ᲁ'], .cls false [.rng 'И' 'И', .rng 'и' 'и'], .cls false [.rng 'Н' 'Н', .rng 'н' 'н'], .cls false [.rng 'А' 'А', .rng 'а' 'а']], .seqs [.cls false [.rng 'З' 'З', .rng 'з' 'з'], .cls false [.rng 'А' 'А', .rng 'а' 'а'], .lit [' '], .number, .lit [' '], .cls false [.rng 'Г' 'Г', .rng 'г' 'г'], .cls false [.rng 'О' 'О', .rng 'о' 'о', .rng 'ᲂ' 'ᲂ'], .cls false [.rng 'Д' 'Д', .rng 'д' 'д', .rng 'ᲁ' 'ᲁ'], .cls false [.rng 'И' 'И', .rng 'и' 'и'], .cls false [.rng 'Н' 'Н', .rng 'н' 'н'], .cls false [.rng 'У' 'У', .rng 'у' 'у']], .seqs [.cls false [.rng 'З' 'З', .rng 'з' 'з'], .cls false [.rng 'А' 'А', .rng 'а' 'а'], .lit [' '], .number, .lit [' '], .cls false [.rng 'М' 'М', .rng 'м' 'м'], .cls false [.rng 'Е' 'Е', .rng 'е' 'е'], .cls false [.rng 'С' 'С', .rng 'с' 'с', .rng 'ᲃ' 'ᲃ'], .cls false [.rng 'Е' 'Е', .rng 'е' 'е'], .cls false [.rng 'Ц' 'Ц', .rng 'ц' 'ц'], .cls false [.rng 'И' 'И', .rng 'и' 'и']], .seqs [.cls false [.rng 'З' 'З', .rng 'з' 'з'], .cls false [.rng 'А' 'А', .rng 'а' 'а'], .lit [' '], .number, .lit [' '], .cls false [.rng 'М' 'М', .rng 'м' 'м'], .cls false [.rng 'И' 'И', .rng 'и' 'и'], .cls false [.rng 'Н' 'Н', .rng 'н' 'н'], .cls false [.rng 'У' 'У', .rng 'у' 'у'], .cls false [.rng 'Т' 'Т', .rng 'т' 'т', .rng 'ᲄ' 'ᲄ', .rng 'ᲅ' 'ᲅ'], .cls false [.rng 'А' 'А', .rng 'а' 'а']], .seqs [.cls false [.rng 'З' 'З', .rng 'з' 'з'], .cls false [.rng 'А' 'А', .rng 'а' 'а'], .lit [' '], .number, .lit [' '], .cls false [.rng 'Н' 'Н', .rng 'н' 'н'], .cls false [.rng 'Е' 'Е', .rng 'е' 'е'], .cls false [.rng 'Д' 'Д', .rng 'д' 'д', .rng 'ᲁ' 'ᲁ'], .cls false [.rng 'Е' 'Е', .rng 'е' 'е'], .cls false [.rng 'Љ' 'Љ', .rng 'љ' 'љ'], .cls false [.rng 'А' 'А', .rng 'а' 'а']], .seqs [.cls false [.rng 'З' 'З', .rng 'з' 'з'], .cls false [.rng 'А' 'А', .rng 'а' 'а'], .lit [' '], .number, .lit [' '], .cls false [.rng 'Н' 'Н', .rng 'н' 'н'], .cls false [.rng 'Е' 'Е', .rng 'е' 'е'], .cls false [.rng 'Д' 'Д', .rng 'д' 'д', .rng 'ᲁ' 'ᲁ'], .cls false [.rng 'Е' 'Е', .rng 'е' 'е'], .cls false [.rng 'Љ' 'Љ', .rng 'љ' 'љ'], .cls false [.rng 'У' 'У', .rng 'у' 'у']], .seqs [.cls false [.rng 'З' 'З', .rng 'з' 'з'], .cls false [.rng 'А' 'А', .rng 'а' 'а'], .lit [' '], .number, .lit [' '], .cls false [.rng 'М' 'М', .rng 'м' 'м'], .cls false [.rng 'Е' 'Е', .rng 'е' 'е'], .cls false [.rng 'С' 'С', .rng 'с' 'с', .rng 'ᲃ' 'ᲃ'], .cls false [.rng 'Е' 'Е', .rng 'е' 'е'], .cls false [.rng 'Ц' 'Ц', .rng 'ц' 'ц']], .seqs [.cls false [.rng 'З' 'З', .rng 'з' 'з'], .cls false [.rng 'А' 'А', .rng 'а' 'а'], .lit [' '], .number, .lit [' '], .cls false [.rng 'М' 'М', .rng 'м' 'м'], .cls false [.rng 'И' 'И', .rng 'и' 'и'], .cls false [.rng 'Н' 'Н', .rng 'н' 'н'], .cls false [.rng 'У' 'У', .rng 'у' 'у'], .cls false [.rng 'Т' 'Т', .rng 'т' 'т', .rng 'ᲄ' 'ᲄ', .rng 'ᲅ' 'ᲅ']], .seqs [.cls false [.rng 'П' 'П', .rng 'п' 'п'], .cls false [.rng 'Р' 'Р', .rng 'р' 'р'], .cls false [.rng 'Е' 'Е', .rng 'е' 'е'], .lit [' '], .number, .lit [' '], .cls false [.rng 'Д' 'Д', .rng 'д' 'д', .rng 'ᲁ' 'ᲁ'], .cls false [.rng 'А' 'А', .rng 'а' 'а'], .cls false [.rng 'Н' 'Н', .rng 'н' 'н'], .cls false [.rng 'А' 'А', .rng 'а' 'а']], .seqs [.cls false [.rng 'П' 'П', .rng 'п' 'п'], .cls false [.rng 'Р' 'Р', .rng 'р' 'р'], .cls false [.rng 'Е' 'Е', .rng 'е' 'е'], .lit [' '], .number, .lit [' '], .cls false [.rng 'С' 'С', .rng 'с' 'с', .rng 'ᲃ' 'ᲃ'], .cls false [.rng 'А' 'А', .rng 'а' 'а'], .cls false [.rng 'Т' 'Т', .rng 'т' 'т', .rng 'ᲄ' 'ᲄ', .rng 'ᲅ' 'ᲅ'], .cls false [.rng 'А' 'А', .rng 'а' 'а']], .seqs [.cls false [.rng 'П' 'П', .rng 'п' 'п'], .cls false [.rng 'Р' 'Р', .rng 'р' 'р'], .cls false [.rng 'Е' 'Е', .rng 'е' 'е'], .lit [' '], .number, .lit [' '], .cls false [.rng 'С' 'С', .rng 'с' 'с', .rng 'ᲃ' 'ᲃ'], .cls false [.rng 'А' 'А', .rng 'а' 'а'], .cls false [.rng 'Т' 'Т', .rng 'т' 'т', .rng 'ᲄ' 'ᲄ', .rng 'ᲅ' 'ᲅ'], .cls false [.rng 'И' 'И', .rng 'и' 'и']], .seqs [.cls false [.rng 'З' 'З', .rng 'з' 'з'], .cls false [.rng 'А' 'А', .rng 'а' 'а'], .lit [' '], .number, .lit [' '], .cls false [.rng 'Д' 'Д', .rng 'д' 'д', .rng 'ᲁ' 'ᲁ'], .cls false [.rng 'А' 'А', .rng 'а' 'а'], .cls false [.rng 'Н' 'Н', .rng 'н' 'н'], .cls false [.rng 'А' 'А', .rng 'а' 'а']], .seqs [.cls false [.rng 'З' 'З', .rng 'з' 'з'], .cls false [.rng 'А' 'А', .rng 'а' 'а'], .lit [' '], .number, .lit [' '], .cls false [.rng 'С' 'С', .rng 'с' 'с', .rng 'ᲃ' 'ᲃ'], .cls false [.rng 'А' 'А', .rng 'а' 'а'], .cls false [.rng 'Т' 'Т', .rng 'т' 'т', .rng 'ᲄ' 'ᲄ', .rng 'ᲅ' 'ᲅ'], .cls false [.rng 'И' 'И', .rng 'и' 'и']], .seqs [.cls false [.rng 'П' 'П', .rng 'п' 'п'], .cls false [.rng 'Р' 'Р', .rng 'р' 'р'], .cls false [.rng 'Е' 'Е', .rng 'е' 'е'], .lit [' '], .number, .lit [' '], .cls false [.rng 'Г' 'Г', .rng 'г' 'г'], .cls false [.rng 'О' 'О', .rng 'о' 'о', .rng 'ᲂ' 'ᲂ'], .cls false [.rng 'Д' 'Д', .rng 'д' 'д', .rng 'ᲁ' 'ᲁ']], .seqs [.cls false [.rng 'П' 'П', .rng 'п' 'п'], .cls false [.rng 'Р' 'Р', .rng 'р' 'р'], .cls false [.rng 'Е' 'Е', .rng 'е' 'е'], .lit [' '], .number, .lit [' '], .cls false [.rng 'М' 'М', .rng 'м' 'м'], .cls false [.rng 'Е' 'Е', .rng 'е' 'е'], .cls false [.rng 'С' 'С', .rng 'с' 'с', .rng 'ᲃ' 'ᲃ']], .seqs [.cls false [.rng 'П' 'П', .rng 'п' 'п'], .cls false [.rng 'Р' 'Р', .rng 'р' 'р'], .cls false [.rng 'Е' 'Е', .rng 'е' 'е'], .lit [' '], .number, .lit [' '], .cls false [.rng 'М' 'М', .rng 'м' 'м'], .cls false [.rng 'И' 'И', .rng 'и' 'и'], .cls false [.rng 'Н' 'Н', .rng 'н' 'н']], .seqs [.cls false [.rng 'П' 'П', .rng 'п' 'п'], .cls false [.rng 'Р' 'Р', .rng 'р' 'р'], .cls false [.rng 'Е' 'Е', .rng 'е' 'е'], .lit [' '], .number, .lit [' '], .cls false [.rng 'Н' 'Н', .rng 'н' 'н'], .cls false [.rng 'Е' 'Е', .rng 'е' 'е'], .cls false [.rng 'Д' 'Д', .rng 'д' 'д', .rng 'ᲁ' 'ᲁ']], .seqs [.cls false [.rng 'П' 'П', .rng 'п' 'п'], .cls false [.rng 'Р' 'Р', .rng 'р' 'р'], .cls false [.rng 'Е' 'Е', .rng 'е' 'е'], .lit [' '], .number, .lit [' '], .cls false [.rng 'С' 'С', .rng 'с' 'с', .rng 'ᲃ' 'ᲃ'], .cls false [.rng 'Е' 'Е', .rng 'е' 'е'], .cls false [.rng 'К' 'К', .rng 'к' 'к']], .seqs [.cls false [.rng 'З' 'З', .rng 'з' 'з'], .cls false [.rng 'А' 'А', .rng 'а' 'а'], .lit [' '], .number, .lit [' '], .cls false [.rng 'Г' 'Г', .rng 'г' 'г'], .cls false [.rng 'О' 'О', .rng 'о' 'о', .rng 'ᲂ' 'ᲂ'], .cls false [.rng 'Д' 'Д', .rng 'д' 'д', .rng 'ᲁ' 'ᲁ']], .seqs [.cls false [.rng 'З' 'З', .rng 'з' 'з'], .cls false [.rng 'А' 'А', .rng 'а' 'а'], .lit [' '], .number, .lit [' '], .cls false [.rng 'Д' 'Д', .rng 'д' 'д', .rng 'ᲁ' 'ᲁ'], .cls false [.rng 'А' 'А', .rng 'а' 'а'], .cls false [.rng 'Н' 'Н', .rng 'н' 'н']], .seqs [.cls false [.rng 'З' 'З', .rng 'з' 'з'], .cls false [.rng 'А' 'А', .rng 'а' 'а'], .lit [' '], .number, .lit [' '], .cls false [.rng 'М' 'М', .rng 'м' 'м'], .cls false [.rng 'Е' 'Е', .rng 'е' 'е'], .cls false [.rng 'С' 'С', .rng 'с' 'с', .rng 'ᲃ' 'ᲃ']], .seqs [.cls false [.rng 'З' 'З', .rng 'з' 'з'], .cls false [.rng 'А' 'А', .rng 'а' 'а'], .lit [' '], .number, .lit [' '], .cls false [.rng 'М' 'М', .rng 'м' 'м'], .cls false [.rng 'И' 'И', .rng 'и' 'и'], .cls false [.rng 'Н' 'Н', .rng 'н' 'н']], .seqs [.cls false [.rng 'З' 'З', .rng 'з' 'з'], .cls false [.rng 'А' 'А', .rng 'а' 'а'], .lit [' '], .number, .lit [' '], .cls false [.rng 'Н' 'Н', .rng 'н' 'н'], .cls false [.rng 'Е' 'Е', .rng 'е' 'е'], .cls false [.rng 'Д' 'Д', .rng 'д' 'д', .rng 'ᲁ' 'ᲁ']], .seqs [.cls false [.rng 'З' 'З', .rng 'з' 'з'], .cls false [.rng 'А' 'А', .rng 'а' 'а'], .lit [' '], .number, .lit [' '], .cls false [.rng 'С' 'С', .rng 'с' 'с', .rng 'ᲃ' 'ᲃ'], .cls false [.rng 'А' 'А', .rng 'а' 'а'], .cls false [.rng 'Т' 'Т', .rng 'т' 'т', .rng 'ᲄ' 'ᲄ', .rng 'ᲅ' 'ᲅ']], .seqs [.cls false [.rng 'З' 'З', .rng 'з' 'з'], .cls false [.rng 'А' 'А', .rng 'а' 'а'], .lit [' '], .number, .lit [' '], .cls false [.rng 'С' 'С', .rng 'с' 'с', .rng 'ᲃ' 'ᲃ'], .cls false [.rng 'Е' 'Е', .rng 'е' 'е'], .cls false [.rng 'К' 'К', .rng 'к' 'к']], .seqs [.cls false [.rng 'П' 'П', .rng 'п' 'п'], .cls false [.rng 'Р' 'Р', .rng 'р' 'р'], .cls false [.rng 'Е' 'Е', .rng 'е' 'е'], .lit [' '], .number, .lit [' '], .cls false [.rng 'Г' 'Г', .rng 'г' 'г']], .seqs [.cls false [.rng 'П' 'П', .rng 'п' 'п'], .cls false [.rng 'Р' 'Р', .rng 'р' 'р'], .cls false [.rng 'Е' 'Е', .rng 'е' 'е'], .lit [' '], .number, .lit [' '], .cls false [.rng 'Д' 'Д', .rng 'д' 'д', .rng 'ᲁ' 'ᲁ']], .seqs [.cls false [.rng 'П' 'П', .rng 'п' 'п'], .cls false [.rng 'Р' 'Р', .rng 'р' 'р'], .cls false [.rng 'Е' 'Е', .rng 'е' 'е'], .lit [' '], .number, .lit [' '], .cls false [.rng 'М' 'М', .rng 'м' 'м']], .seqs [.cls false [.rng 'П' 'П', .rng 'п' 'п'], .cls false [.rng 'Р' 'Р', .rng 'р' 'р'], .cls false [.rng 'Е' 'Е', .rng 'е' 'е'], .lit [' '], .number, .lit [' '], .cls false [.rng 'Н' 'Н', .rng 'н' 'н']], .seqs [.cls false [.rng 'П' 'П', .rng 'п' 'п'], .cls false [.rng 'Р' 'Р', .rng 'р' 'р'], .cls false [.rng 'Е' 'Е', .rng 'е' 'е'], .lit [' '], .number, .lit [' '], .cls false [.rng 'С' 'С', .rng 'с' 'с', .rng 'ᲃ' 'ᲃ']], .seqs [.cls false [.rng 'П' 'П', .rng 'п' 'п'], .cls false [.rng 'Р' 'Р', .rng 'р' 'р'], .cls false [.rng 'Е' 'Е', .rng 'е' 'е'], .lit [' '], .number, .lit [' '], .cls false [.rng 'Ч' 'Ч', .rng 'ч' 'ч']], .seqs [.cls false [.rng 'З' 'З', .rng 'з' 'з'], .cls false [.rng 'А' 'А', .rng 'а' 'а'], .lit [' '], .number, .lit [' '], .cls false [.rng 'Г' 'Г', .rng 'г' 'г']], .seqs [.cls false [.rng 'З' 'З', .rng 'з' 'з'], .cls false [.rng 'А' 'А', .rng 'а' 'а'], .lit [' '], .number, .lit [' '], .cls false [.rng 'Д' 'Д', .rng 'д' 'д', .rng 'ᲁ' 'ᲁ']], .seqs [.cls false [.rng 'З' 'З', .rng 'з' 'з'], .cls false [.rng 'А' 'А', .rng 'а' 'а'], .lit [' '], .number, .lit [' '], .cls false [.rng 'М' 'М', .rng 'м' 'м']], .seqs [.cls false [.rng 'З' 'З', .rng 'з' 'з'], .cls false [.rng 'А' 'А', .rng 'а' 'а'], .lit [' '], .number, .lit [' '], .cls false [.rng 'Н' 'Н', .rng 'н' 'н']], .seqs [.cls false [.rng 'З' 'З', .rng 'з' 'з'], .cls false [.rng 'А' 'А', .rng 'а' 'а'], .lit [' '], .number, .lit [' '], .cls false [.rng 'С' 'С', .rng 'с' 'с', .rng 'ᲃ' 'ᲃ']], .seqs [.cls false [.rng 'З' 'З', .rng 'з' 'з'], .cls false [.rng 'А' 'А', .rng 'а' 'а'], .lit [' '], .number, .lit [' '], .cls false [.rng 'Ч' 'Ч', .rng 'ч' 'ч']]]), .grp 3 (.alts [.eos, .cls true [.letter, .mark, .digit], .lit ['_']])], 3),
  rxExact := some (.seqs [.bos, .grp 1 (.alts [.seqs [.cls false [.rng 'П' 'П', .rng 'п' 'п'], .cls false [.rng 'Р' 'Р', .rng 'р' 'р'], .cls false [.rng 'Е' 'Е', .rng 'е' 'е'], .lit [' '], .number, .lit [' '], .cls false [.rng 'С' 'С', .rng 'с' 'с', .rng 'ᲃ' 'ᲃ'], .cls false [.rng 'Е' 'Е', .rng 'е' 'е'], .cls false [.rng 'К' 'К', .rng 'к' 'к'], .cls false [.rng 'У' 'У', .rng 'у' 'у'], .cls false [.rng 'Н' 'Н', .rng 'н' 'н'], .cls false [.rng 'Д' 'Д', .rng 'д' 'д', .rng 'ᲁ' 'ᲁ'], .cls false [.rng 'Е' 'Е', .rng 'е' 'е']], .seqs [.cls false [.rng 'П' 'П', .rng 'п' 'п'], .cls false [.rng 'Р' 'Р', .rng 'р' 'р'], .cls false [.rng 'Е' 'Е', .rng 'е' 'е'], .lit [' '], .number, .lit [' '], .cls false [.rng 'С' 'С', .rng 'с' 'с', .rng 'ᲃ' 'ᲃ'], .cls false [.rng 'Е' 'Е', .rng 'е' 'е'], .cls false [.rng 'К' 'К', .rng 'к' 'к'], .cls false [.rng 'У' 'У', .rng 'у' 'у'], .cls false [.rng 'Н' 'Н', .rng 'н' 'н'], .cls false [.rng 'Д' 'Д', .rng 'д' 'д', .rng 'ᲁ' 'ᲁ'], .cls false [.rng 'И' 'И', .rng 'и' 'и']], .seqs [.cls false [.rng 'З' 'З', .rng 'з' 'з'], .cls false [.rng 'А' 'А', .rng 'а' 'а'], .lit [' '], .number, .lit [' '], .cls false [.rng 'С' 'С', .rng 'с' 'с', .rng 'ᲃ' 'ᲃ'], .cls false [.rng 'Е' 'Е', .rng 'е' 'е'], .cls false [.rng 'К' 'К', .rng 'к' 'к'], .cls false [.rng 'У' 'У', .rng 'у' 'у'], .cls false [.rng 'Н' 'Н', .rng 'н' 'н'], .cls false [.rng 'Д' 'Д', .rng 'д' 'д', .rng 'ᲁ' 'ᲁ'], .cls false [.rng 'И' 'И', .rng 'и' 'и']], .seqs [.cls false [.rng 'З' 'З', .rng 'з' 'з'], .cls false [.rng 'А' 'А', .rng 'а' 'а'], .lit [' '], .number, .lit [' '], .cls false [.rng 'С' 'С', .rng 'с' 'с', .rng 'ᲃ' 'ᲃ'], .cls false [.rng 'Е' 'Е', .rng 'е' 'е'], .cls false [.rng 'К' 'К', .rng 'к' 'к'], .cls false [.rng 'У' 'У', .rng 'у' 'у'], .cls false [.rng 'Н' 'Н', .rng 'н' 'н'], .cls false [.rng 'Д' 'Д', .rng 'д' 'д', .rng 'ᲁ' 'ᲁ'], .cls false [.rng 'У' 'У', .rng 'у' 'у']], .seqs [.cls false [.rng 'П' 'П', .rng 'п' 'п'], .cls false [.rng 'Р' 'Р', .rng 'р' 'р'], .cls false [.rng 'Е' 'Е', .rng 'е' 'е'], .lit [' '], .number, .lit [' '], .cls false [.rng 'Г' 'Г', .rng 'г' 'г'], .cls false [.rng 'О' 'О', .rng 'о' 'о', .rng 'ᲂ' 'ᲂ'], .cls false [.rng 'Д' 'Д', .rng 'д' 'д', .rng 'ᲁ' 'ᲁ'], .cls false [.rng 'И' 'И', .rng 'и' 'и'], .cls false [.rng 'Н' 'Н', .rng 'н' 'н'], .cls false [.rng 'А' 'А', .rng 'а' 'а']], .seqs [.cls false [.rng 'П' 'П', .rng 'п' 'п'], .cls false [.rng 'Р' 'Р', .rng 'р' 'р'], .cls false [.rng 'Е' 'Е', .rng 'е' 'е'], .lit [' '], .number, .lit [' '], .cls false [.rng 'Г' 'Г', .rng 'г' 'г'], .cls false [.rng 'О' 'О', .rng 'о' 'о', .rng 'ᲂ' 'ᲂ'], .cls false [.rng 'Д' 'Д', .rng 'д' 'д', .rng 'ᲁ' 'ᲁ'], .cls false [.rng 'И' 'И', .rng 'и' 'и'], .cls false [.rng 'Н' 'Н', .rng 'н' 'н'], .cls false [.rng 'Е' 'Е', .rng 'е' 'е']], .seqs [.cls false [.rng 'П' 'П', .rng 'п' 'п'], .cls false [.rng 'Р' 'Р', .rng 'р' 'р'], .cls false [.rng 'Е' 'Е', .rng 'е' 'е'], .lit [' '], .number, .lit [' '], .cls false [.rng 'М' 'М', .rng 'м' 'м'], .cls false [.rng 'Е' 'Е', .rng 'е' 'е'], .cls false [.rng 'С' 'С', .rng 'с' 'с', .rng 'ᲃ' 'ᲃ'], .cls false [.rng 'Е' 'Е', .rng 'е' 'е'], .cls false [.rng 'Ц' 'Ц', .rng 'ц' 'ц'], .cls false [.rng 'А' 'А', .rng 'а' 'а']], .seqs [.cls false [.rng 'П' 'П', .rng 'п' 'п'], .cls false [.rng 'Р' 'Р', .rng 'р' 'р'], .cls false [.rng 'Е' 'Е', .rng 'е' 'е'], .lit [' '], .number, .lit [' '], .cls false [.rng 'М' 'М', .rng 'м' 'м'], .cls false [.rng 'Е' 'Е', .rng 'е' 'е'], .cls false [.rng 'С' 'С', .rng 'с' 'с', .rng 'ᲃ' 'ᲃ'], .cls false [.rng 'Е' 'Е', .rng 'е' 'е'], .cls false [.rng 'Ц' 'Ц', .rng 'ц' 'ц'], .cls false [.rng 'И' 'И', .rng 'и' 'и']], .seqs [.cls false [.rng 'П' 'П', .rng 'п' 'п'], .cls false [.rng 'Р' 'Р', .rng 'р' 'р'], .cls false [.rng 'Е' 'Е', .rng 'е' 'е'], .lit [' '], .number, .lit [' '], .cls false [.rng 'М' 'М', .rng 'м' 'м'], .cls false [.rng 'И' 'И', .rng 'и' 'и'], .cls false [.rng 'Н' 'Н', .rng 'н' 'н'], .cls false [.rng 'У' 'У', .rng 'у' 'у'], .cls false [.rng 'Т' 'Т', .rng 'т' 'т', .rng 'ᲄ' 'ᲄ', .rng 'ᲅ' 'ᲅ'], .cls false [.rng 'А' 'А', .rng 'а' 'а']], .seqs [.cls false [.rng 'П' 'П', .rng 'п' 'п'], .cls false [.rng 'Р' 'Р', .rng 'р' 'р'], .cls false [.rng 'Е' 'Е', .rng 'е' 'е'], .lit [' '], .number, .lit [' '], .cls false [.rng 'Н' 'Н', .rng 'н' 'н'], .cls false [.rng 'Е' 'Е', .rng 'е' 'е'], .cls false [.rng 'Д' 'Д', .rng 'д' 'д', .rng 'ᲁ' 'ᲁ'], .cls false [.rng 'Е' 'Е', .rng 'е' 'е'], .cls false [.rng 'Љ' 'Љ', .rng 'љ' 'љ'], .cls false [.rng 'А' 'А', .rng 'а' 'а']], .seqs [.cls false [.rng 'П' 'П', .rng 'п' 'п'], .cls false [.rng 'Р' 'Р', .rng 'р' 'р'], .cls false [.rng 'Е' 'Е', .rng 'е' 'е'], .lit [' '], .number, .lit [' '], .cls false [.rng 'Н' 'Н', .rng 'н' 'н'], .cls false [.rng 'Е' 'Е', .rng 'е' 'е'], .cls false [.rng 'Д' 'Д', .rng 'д' 'д', .rng 'ᲁ' 'ᲁ'], .cls false [.rng 'Е' 'Е', .rng 'е' 'е'], .cls false [.rng 'Љ' 'Љ', .rng 'љ' 'љ'], .cls false [.rng 'Е' 'Е', .rng 'е' 'е']], .seqs [.cls false [.rng 'З' 'З', .rng 'з' 'з'], .cls false [.rng 'А' 'А', .rng 'а' 'а'], .lit [' '], .number, .lit [' '], .cls false [.rng 'Г' 'Г', .rng 'г' 'г'], .cls false [.rng 'О' 'О', .rng 'о' 'о', .rng 'ᲂ' 'ᲂ'], .cls false [.rng 'Д' 'Д', .rng 'д' 'д', .rng 'ᲁ' 'ᲁ'], .cls false [.rng 'И' 'И', .rng 'и' 'и'], .cls false [.rng 'Н' 'Н', .rng 'н' 'н'], .cls false [.rng 'А' 'А', .rng 'а' 'а']], .seqs [.cls false [.rng 'З' 'З', .rng 'з' 'з'], .cls false [.rng 'А' 'А', .rng 'а' 'а'], .lit [' '], .number, .lit [' '], .cls false [.rng 'Г' 'Г', .rng 'г' 'г'], .cls false [.rng 'О' 'О', .rng 'о' 'о', .rng 'ᲂ' 'ᲂ'], .cls false [.rng 'Д' 'Д', .rng 'д' 'д', .rng 'ᲁ' 'ᲁ'], .cls false [.rng 'И' 'И', .rng 'и' 'и'], .cls false [.rng 'Н' 'Н', .rng 'н' 'н'], .cls false [.rng 'У' 'У', .rng 'у' 'у']], .seqs [.cls false [.rng 'З' 'З', .rng 'з' 'з'], .cls false [.rng 'А' 'А', .rng 'а' 'а'], .lit [' '], .number, .lit [' '], .cls false [.rng 'М' 'М', .rng 'м' 'м'], .cls false [.rng 'Е' 'Е', .rng 'е' 'е'], .cls false [.rng 'С' 'С', .rng 'с' 'с', .rng 'ᲃ' 'ᲃ'], .cls false [.rng 'Е' 'Е', .rng 'е' 'е'], .cls false [.rng 'Ц' 'Ц', .rng 'ц' 'ц'], .cls false [.rng 'И' 'И', .rng 'и' 'и']], .seqs [.cls false [.rng 'З' 'З', .rng 'з' 'з'], .cls false [.rng 'А' 'А', .rng 'а' 'а'], .lit [' '], .number, .lit [' '], .cls false [.rng 'М' 'М', .rng 'м' 'м'], .cls false [.rng 'И' 'И', .rng 'и' 'и'], .cls false [.rng 'Н' 'Н', .rng 'н' 'н'], .cls false [.rng 'У' 'У', .rng 'у' 'у'], .cls false [.rng 'Т' 'Т', .rng 'т' 'т', .rng 'ᲄ' 'ᲄ', .rng 'ᲅ' 'ᲅ'], .cls false [.rng 'А' 'А', .rng 'а' 'а']], .seqs [.cls false [.rng 'З' 'З', .rng 'з' 'з'], .cls false [.rng 'А' 'А', .rng 'а' 'а'], .lit [' '], .number, .lit [' '], .cls false [.rng 'Н' 'Н', .rng 'н' 'н'], .cls false [.rng 'Е' 'Е', .rng 'е' 'е'], .cls false [.rng 'Д' 'Д', .rng 'д' 'д', .rng 'ᲁ' 'ᲁ'], .cls false [.rng 'Е' 'Е', .rng 'е' 'е'], .cls false [.rng 'Љ' 'Љ', .rng 'љ' 'љ'], .cls false [.rng 'А' 'А', .rng 'а' 'а']], .seqs [.cls false [.rng 'З' 'З', .rng 'з' 'з'], .cls false [.rng 'А' 'А', .rng 'а' 'а'], .lit [' '], .number, .lit [' '], .cls false [.rng 'Н' 'Н', .rng 'н' 'н'], .cls false [.rng 'Е' 'Е', .rng 'е' 'е'], .cls false [.rng 'Д' 'Д', .rng 'д' 'д', .rng 'ᲁ' 'ᲁ'], .cls false [.rng 'Е' 'Е', .rng 'е' 'е'], .cls false [.rng 'Љ' 'Љ', .rng 'љ' 'љ'], .cls false [.rng 'У' 'У', .rng 'у' 'у']], .seqs [.cls false [.rng 'З' 'З', .rng 'з' 'з'], .cls false [.rng 'А' 'А', .rng 'а' 'а'], .lit [' '], .number, .lit [' '], .cls false [.rng 'М' 'М', .rng 'м' 'м'], .cls false [.rng 'Е' 'Е', .rng 'е' 'е'], .cls false [.rng 'С' 'С', .rng 'с' 'с', .rng 'ᲃ' 'ᲃ'], .cls false [.rng 'Е' 'Е', .rng 'е' 'е'], .cls false [.rng 'Ц' 'Ц', .rng 'ц' 'ц']], .seqs [.cls false [.rng 'З' 'З', .rng 'з' 'з'], .cls false [.rng 'А' 'А', .rng 'а' 'а'], .lit [' '], .number, .lit [' '], .cls false [.rng 'М' 'М', .rng 'м' 'м'], .cls false [.rng 'И' 'И', .rng 'и' 'и'], .cls false [.rng 'Н' 'Н', .rng 'н' 'н'], .cls false [.rng 'У' 'У', .rng 'у' 'у'], .cls false [.rng 'Т' 'Т', .rng 'т' 'т', .rng 'ᲄ' 'ᲄ', .rng 'ᲅ' 'ᲅ']], .seqs [.cls false [.rng 'П' 'П', .rng 'п' 'п'], .cls false [.rng 'Р' 'Р', .rng 'р' 'р'], .cls false [.rng 'Е' 'Е', .rng 'е' 'е'], .lit [' '], .number, .lit [' '], .cls false [.rng 'Д' 'Д', .rng 'д' 'д', .rng 'ᲁ' 'ᲁ'], .cls false [.rng 'А' 'А', .rng 'а' 'а'], .cls false [.rng 'Н' 'Н', .rng 'н' 'н'], .cls false [.rng 'А' 'А', .rng 'а' 'а']], .seqs [.cls false [.rng 'П' 'П', .rng 'п' 'п'], .cls false [.rng 'Р' 'Р', .rng 'р' 'р'], .cls false [.rng 'Е' 'Е', .rng 'е' 'е'], .lit [' '], .number, .lit [' '], .cls false [.rng 'С' 'С', .rng 'с' 'с', .rng 'ᲃ' 'ᲃ'], .cls false [.rng 'А' 'А', .rng 'а' 'а'], .cls false [.rng 'Т' 'Т', .rng 'т' 'т', .rng 'ᲄ' 'ᲄ', .rng 'ᲅ' 'ᲅ'], .cls false [.rng 'А' 'А', .rng 'а' 'а']], .seqs [.cls false [.rng 'П' 'П', .rng 'п' 'п'], .cls false [.rng 'Р' 'Р', .rng 'р' 'р'], .cls false [.rng 'Е' 'Е', .rng 'е' 'е'], .lit [' '], .number, .lit [' '], .cls false [.rng 'С' 'С', .rng 'с' 'с', .rng 'ᲃ' 'ᲃ'], .cls false [.rng 'А' 'А', .rng 'а' 'а'], .cls false [.rng 'Т' 'Т', .rng 'т' 'т', .rng 'ᲄ' 'ᲄ', .rng 'ᲅ' 'ᲅ'], .cls false [.rng 'И' 'И', .rng 'и' 'и']], .seqs [.cls false [.rng 'З' 'З', .rng 'з' 'з'], .cls false [.rng 'А' 'А', .rng 'а' 'а'], .lit [' '], .number, .lit [' '], .cls false [.rng 'Д' 'Д', .rng 'д' 'д', .rng 'ᲁ' 'ᲁ'], .cls false [.rng 'А' 'А', .rng 'а' 'а'], .cls false [.rng 'Н' 'Н', .rng 'н' 'н'], .cls false [.rng 'А' 'А', .rng 'а' 'а']], .seqs [.cls false [.rng 'З' 'З', .rng 'з' 'з'], .cls false [.rng 'А' 'А', .rng 'а' 'а'], .lit [' '], .number, .lit [' '], .cls false [.rng 'С' 'С', .rng 'с' 'с', .rng 'ᲃ' 'ᲃ'], .cls false [.rng 'А' 'А', .rng 'а' 'а'], .cls false [.rng 'Т' 'Т', .rng 'т' 'т', .rng 'ᲄ' 'ᲄ', .rng 'ᲅ' 'ᲅ'], .cls false [.rng 'И' 'И', .rng 'и' 'и']], .seqs [.cls false [.rng 'П' 'П', .rng 'п' 'п'], .cls false [.rng 'Р' 'Р', .rng 'р' 'р'], .cls false [.rng 'Е' 'Е', .rng 'е' 'е'], .lit [' '], .number, .lit [' '], .cls false [.rng 'Г' 'Г', .rng 'г' 'г'], .cls false [.rng 'О' 'О', .rng 'о' 'о', .rng 'ᲂ' 'ᲂ'], .cls false [.rng 'Д' 'Д', .rng 'д' 'д', .rng 'ᲁ' 'ᲁ']], .seqs [.cls false [.rng 'П' 'П', .rng 'п' 'п'], .cls false [.rng 'Р' 'Р', .rng 'р' 'р'], .cls false [.rng 'Е' 'Е', .rng 'е' 'е'], .lit [' '], .number, .lit [' '], .cls false [.rng 'М' 'М', .rng 'м' 'м'], .cls false [.rng 'Е' 'Е', .rng 'е' 'е'], .cls false [.rng 'С' 'С', .rng 'с' 'с', .rng 'ᲃ' 'ᲃ']], .seqs [.cls false [.rng 'П' 'П', .rng 'п' 'п'], .cls false [.rng 'Р' 'Р', .rng 'р' 'р'], .cls false [.rng 'Е' 'Е', .rng 'е' 'е'], .lit [' '], .number, .lit [' '], .cls false [.rng 'М' 'М', .rng 'м' 'м'], .cls false [.rng 'И' 'И', .rng 'и' 'и'], .cls false [.rng 'Н' 'Н', .rng 'н' 'н']], .seqs [.cls false [.rng 'П' 'П', .rng 'п' 'п'], .cls false [.rng 'Р' 'Р', .rng 'р' 'р'], .cls false [.rng 'Е' 'Е', .rng 'е' 'е'], .lit [' '], .number, .lit [' '], .cls false [.rng 'Н' 'Н', .rng 'н' 'н'], .cls false [.rng 'Е' 'Е', .rng 'е' 'е'], .cls false [.rng 'Д' 'Д', .rng 'д' 'д', .rng 'ᲁ' 'ᲁ']], .seqs [.cls false [.rng 'П' 'П', .rng 'п' 'п'], .cls false [.rng 'Р' 'Р', .rng 'р' 'р'], .cls false [.rng 'Е' 'Е', .rng 'е' 'е'], .lit [' '], .number, .lit [' '], .cls false [.rng 'С' 'С', .rng 'с' 'с', .rng 'ᲃ' 'ᲃ'], .cls false [.rng 'Е' 'Е', .rng 'е' 'е'], .cls false [.rng 'К' 'К', .rng 'к' 'к']], .seqs [.cls false [.rng 'З' 'З', .rng 'з' 'з'], .cls false [.rng 'А' 'А', .rng 'а' 'а'], .lit [' '], .number, .lit [' '], .cls false [.rng 'Г' 'Г', .rng 'г' 'г'], .cls false [.rng 'О' 'О', .rng 'о' 'о', .rng 'ᲂ' 'ᲂ'], .cls false [.rng 'Д' 'Д', .rng 'д' 'д', .rng 'ᲁ' 'ᲁ']], .seqs [.cls false [.rng 'З' 'З', .rng 'з' 'з'], .cls false [.rng 'А' 'А', .rng 'а' 'а'], .lit [' '], .number, .lit [' '], .cls false [.rng 'Д' 'Д', .rng 'д' 'д', .rng 'ᲁ' 'ᲁ'], .cls false [.rng 'А' 'А', .rng 'а' 'а'], .cls false [.rng 'Н' 'Н', .rng 'н' 'н']], .seqs [.cls false [.rng 'З' 'З', .rng 'з' 'з'], .cls false [.rng 'А' 'А', .rng 'а' 'а'], .lit [' '], .number, .lit [' '], .cls false [.rng 'М' 'М', .rng 'м' 'м'], .cls false [.rng 'Е' 'Е', .rng 'е' 'е'], .cls false [.rng 'С' 'С', .rng 'с' 'с', .rng 'ᲃ' 'ᲃ']], .seqs [.cls false [.rng 'З' 'З', .rng 'з' 'з'], .cls false [.rng 'А' 'А', .rng 'а' 'а'], .lit [' '], .number, .lit [' '], .cls false [.rng 'М' 'М', .rng 'м' 'м'], .cls false [.rng 'И' 'И', .rng 'и' 'и'], .cls false [.rng 'Н' 'Н', .rng 'н' 'н']], .seqs [.cls false [.rng 'З' 'З', .rng 'з' 'з'], .cls false [.rng 'А' 'А', .rng 'а' 'а'], .lit [' '], .number, .lit [' '], .cls false [.rng 'Н' 'Н', .rng 'н' 'н'], .cls false [.rng 'Е' 'Е', .rng 'е' 'е'], .cls false [.rng 'Д' 'Д', .rng 'д' 'д', .rng 'ᲁ' 'ᲁ']], .seqs [.cls false [.rng 'З' 'З', .rng 'з' 'з'], .cls false [.rng 'А' 'А', .rng 'а' 'а'], .lit [' '], .number, .lit [' '], .cls false [.rng 'С' 'С', .rng 'с' 'с', .rng 'ᲃ' 'ᲃ'], .cls false [.rng 'А' 'А', .rng 'а' 'а'], .cls false [.rng 'Т' 'Т', .rng 'т' 'т', .rng 'ᲄ' 'ᲄ', .rng 'ᲅ' 'ᲅ']], .seqs [.cls false [.rng 'З' 'З', .rng 'з' 'з'], .cls false [.rng 'А' 'А', .rng 'а' 'а'], .lit [' '], .number, .lit [' '], .cls false [.rng 'С' 'С', .rng 'с' 'с', .rng 'ᲃ' 'ᲃ'], .cls false [.rng 'Е' 'Е', .rng 'е' 'е'], .cls false [.rng 'К' 'К', .rng 'к' 'к']], .seqs [.cls false [.rng 'П' 'П', .rng 'п' 'п'], .cls false [.rng 'Р' 'Р', .rng 'р' 'р'], .cls false [.rng 'Е' 'Е', .rng 'е' 'е'], .lit [' '], .number, .lit [' '], .cls false [.rng 'Г' 'Г', .rng 'г' 'г']], .seqs [.cls false [.rng 'П' 'П', .rng 'п' 'п'], .cls false [.rng 'Р' 'Р', .rng 'р' 'р'], .cls false [.rng 'Е' 'Е', .rng 'е' 'е'], .lit [' '], .number, .lit [' '], .cls false [.rng 'Д' 'Д', .rng 'д' 'д', .rng 'ᲁ' 'ᲁ']], .seqs [.cls false [.rng 'П' 'П', .rng 'п' 'п'], .cls false [.rng 'Р' 'Р', .rng 'р' 'р'], .cls false [.rng 'Е' 'Е', .rng 'е' 'е'], .lit [' '], .number, .lit [' '], .cls false [.rng 'М' 'М', .rng 'м' 'м']], .seqs [.cls false [.rng 'П' 'П', .rng 'п' 'п'], .cls false [.rng 'Р' 'Р', .rng 'р' 'р'], .cls false [.rng 'Е' 'Е', .rng 'е' 'е'], .lit [' '], .number, .lit [' '], .cls false [.rng 'Н' 'Н', .rng 'н' 'н']], .seqs [.cls false [.rng 'П' 'П', .rng 'п' 'п'], .cls false [.rng 'Р' 'Р', .rng 'р' 'р'], .cls false [.rng 'Е' 'Е', .rng 'е' 'е'], .lit [' '], .number, .lit [' '], .cls false [.rng 'С' 'С', .rng 'с' 'с', .rng 'ᲃ' 'ᲃ']], .seqs [.cls false [.rng 'П' 'П', .rng 'п' 'п'], .cls false [.rng 'Р' 'Р', .rng 'р' 'р'], .cls false [.rng 'Е' 'Е', .rng 'е' 'е'], .lit [' '], .number, .lit [' '], .cls false [.rng 'Ч' 'Ч', .rng 'ч' 'ч']], .seqs [.cls false [.rng 'З' 'З', .rng 'з' 'з'], .cls false [.rng 'А' 'А', .rng 'а' 'а'], .lit [' '], .number, .lit [' '], .cls false [.rng 'Г' 'Г', .rng 'г' 'г']], .seqs [.cls false [.rng 'З' 'З', .rng 'з' 'з'], .cls false [.rng 'А' 'А', .rng 'а' 'а'], .lit [' '], .number, .lit [' '], .cls false [.rng 'Д' 'Д', .rng 'д' 'д', .rng 'ᲁ' 'ᲁ']], .seqs [.cls false [.rng 'З' 'З', .rng 'з' 'з'], .cls false [.rng 'А' 'А', .rng 'а' 'а'], .lit [' '], .number, .lit [' '], .cls false [.rng 'М' 'М', .rng 'м' 'м']], .seqs [.cls false [.rng 'З' 'З', .rng 'з' 'з'], .cls false [.rng 'А' 'А', .rng 'а' 'а'], .lit [' '], .number, .lit [' '], .cls false [.rng 'Н' 'Н', .rng 'н' 'н']], .seqs [.cls false [.rng 'З' 'З', .rng 'з' 'з'], .cls false [.rng 'А' 'А', .rng 'а' 'а'], .lit [' '], .number, .lit [' '], .cls false [.rng 'С' 'С', .rng 'с' 'с', .rng 'ᲃ' 'ᲃ']], .seqs [.cls false [.rng 'З' 'З', .rng 'з' 'з'], .cls false [.rng 'А' 'А', .rng 'а' 'а'], .lit [' '], .number, .lit [' '], .cls false [.rng 'Ч' 'Ч', .rng 'ч' 'ч']]]), .eos]),
  knownWords :=
   [['с', 'л', 'е', 'д', 'е', 'ћ', 'е', 'г', ' ', 'м', 'е', 'с', 'е', 'ц', 'а'], ['п', 'р', 'о', 'ш', 'л', 'о', 'г', ' ', 'м', 'е', 'с', 'е', 'ц', 'а'], ['с', 'л', 'е', 'д', 'е', 'ћ', 'е', ' ', 'г', 'о', 'д', 'и', 'н', 'е'], ['с', 'л', 'е', 'д', 'е', 'ћ', 'е', ' ', 'н', 'е', 'д', 'е', 'љ', 'е'], ['п', 'р', 'о', 'ш', 'л', 'е', ' ', 'г', 'о', 'д', 'и', 'н', 'е'], ['п', 'р', 'о', 'ш', 'л', 'е', ' ', 'н', 'е', 'д', 'е', 'љ', 'е'], ['о', 'в', 'о', 'г', ' ', 'м', 'е', 'с', 'е', 'ц', 'а'], ['о', 'в', 'о', 'г', ' ', 'м', 'и', 'н', 'у', 'т', 'а'], ['о', 'в', 'е', ' ', 'г', 'о', 'д', 'и', 'н', 'е'], ['о', 'в', 'е', ' ', 'н', 'е', 'д', 'е', 'љ', 'е'], ['о', 'в', 'о', 'г', ' ', 'с', 'а', 'т', 'а'], ['п', 'о', 'н', 'е', 'д', 'е', 'љ', 'а', 'к'], ['п', 'р', 'е', ' ', 'п', 'о', 'д', 'н', 'е'], ['с', 'е', 'п', 'т', 'е', 'м', 'б', 'а', 'р'], ['д', 'е', 'ц', 'е', 'м', 'б', 'а', 'р'], ['н', 'о', 'в', 'е', 'м', 'б', 'а', 'р'], ['п', 'о', ' ', 'п', 'о', 'д', 'н', 'е'], ['ч', 'е', 'т', 'в', 'р', 'т', 'а', 'к'], ['о', 'к', 'т', 'о', 'б', 'а', 'р'], ['ф', 'е', 'б', 'р', 'у', 'а', 'р'], ['а', 'в', 'г', 'у', 'с', 'т'], ['г', 'о', 'д', 'и', 'н', 'а'], ['н', 'е', 'д', 'е', 'љ', 'а'], ['с', 'е', 'к', 'у', 'н', 'д'], ['с', 'у', 'б', 'о', 'т', 'а'], ['у', 'т', 'о', 'р', 'а', 'к'], ['ј', 'а', 'н', 'у', 'а', 'р'], ['а', 'п', 'р', 'и', 'л'], ['д', 'а', 'н', 'а', 'с'], ['м', 'е', 'с', 'е', 'ц'], ['м', 'и', 'н', 'у', 'т'], ['п', 'е', 'т', 'а', 'к'], ['с', 'р', 'е', 'д', 'а'], ['с', 'у', 'т', 'р', 'а'], ['м', 'а', 'р', 'т'], ['с', 'а', 'д', 'а'], ['ј', 'у', 'ч', 'е'], ['g', 'm', 't'], ['u', 't', 'c'], ['а', 'в', 'г'], ['а', 'п', 'р'], ['г', 'о', 'д'], ['д', 'а', 'н'], ['д', 'е', 'ц'], ['м', 'а', 'р'], ['м', 'а', 'ј'], ['м', 'е', 'с'], ['м', 'и', 'н'], ['н', 'е', 'д'], ['н', 'о', 'в'], ['о', 'к', 'т'], ['п', 'е', 'т'], ['п', 'о', 'н'], ['с', 'а', 'т'], ['с', 'е', 'к'], ['с', 'е', 'п'], ['с', 'р', 'е'], ['с', 'у', 'б'], ['у', 'т', 'о'], ['ф', 'е', 'б'], ['ч', 'е', 'т'], ['ј', 'а', 'н'], ['ј', 'у', 'л'], ['ј', 'у', 'н'], ['a', 'm'], ['p', 'm'], [' '], ['\''], ['+'], [','], ['-'], ['.'], ['/'], [':'], [';'], ['@'], ['['], [']'], ['z'], ['|'], ['г'], ['д'], ['м'], ['н'], ['с'], ['ч']] }

end Verif.Data
