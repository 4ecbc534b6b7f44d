import Verif.Data.Dicts
/-! GENERATED by tools/gen_pats.py from /repo/internal/data; do not edit. -/
set_option autoImplicit false
set_option maxRecDepth 100000
namespace Verif.Data
open Verif.Model

/-- internal/data/fr.go: `fr_BE_Locale`. -/
def fr_BELang : LangData := fr_BEDict

/-- internal/data/fr.go: `fr_BF_Locale`. -/
def fr_BFLang : LangData := fr_BFDict

/-- internal/data/fr.go: `fr_BI_Locale`. -/
def fr_BILang : LangData := fr_BIDict

/-- internal/data/fr.go: `fr_BJ_Locale`. -/
def fr_BJLang : LangData := fr_BJDict

/-- internal/data/fr.go: `fr_BL_Locale`. -/
def fr_BLLang : LangData := fr_BLDict

/-- internal/data/fr.go: `fr_CA_Locale`. -/
def fr_CALang : LangData := { fr_CADict with
  knownWords :=
   [['l', 'a', ' ', 's', 'e', 'm', 'a', 'i', 'n', 'e', ' ', 'p', 'r', 'o', 'c', 'h', 'a', 'i', 'n', 'e'], ['l', 'a', ' ', 's', 'e', 'm', 'a', 'i', 'n', 'e', ' ', 'd', 'e', 'r', 'n', 'i', 'e', 'r', 'e'], ['l', '\'', 'a', 'n', 'n', 'e', 'e', ' ', 'p', 'r', 'o', 'c', 'h', 'a', 'i', 'n', 'e'], ['l', '\'', 'a', 'n', 'n', 'e', 'e', ' ', 'd', 'e', 'r', 'n', 'i', 'e', 'r', 'e'], ['l', 'e', ' ', 'm', 'o', 'i', 's', ' ', 'p', 'r', 'o', 'c', 'h', 'a', 'i', 'n'], ['c', 'e', 't', 't', 'e', ' ', 'm', 'i', 'n', 'u', 't', 'e', '-', 'c', 'i'], ['l', 'e', ' ', 'm', 'o', 'i', 's', ' ', 'd', 'e', 'r', 'n', 'i', 'e', 'r'], ['c', 'e', 't', 't', 'e', ' ', 'h', 'e', 'u', 'r', 'e', '-', 'c', 'i'], ['c', 'e', 't', 't', 'e', ' ', 's', 'e', 'm', 'a', 'i', 'n', 'e'], ['a', 'p', 'r', 'e', 's', '-', 'd', 'e', 'm', 'a', 'i', 'n'], ['a', 'u', 'j', 'o', 'u', 'r', 'd', '\'', 'h', 'u', 'i'], ['c', 'e', 't', 't', 'e', ' ', 'a', 'n', 'n', 'e', 'e'], ['a', 'v', 'a', 'n', 't', '-', 'h', 'i', 'e', 'r'], ['c', 'e', ' ', 'm', 'o', 'i', 's', '-', 'c', 'i'], ['m', 'a', 'i', 'n', 't', 'e', 'n', 'a', 'n', 't'], ['s', 'e', 'p', 't', 'e', 'm', 'b', 'r', 'e'], ['d', 'e', 'c', 'e', 'm', 'b', 'r', 'e'], ['d', 'i', 'm', 'a', 'n', 'c', 'h', 'e'], ['m', 'e', 'r', 'c', 'r', 'e', 'd', 'i'], ['n', 'o', 'v', 'e', 'm', 'b', 'r', 'e'], ['s', 'e', 'c', 'o', 'n', 'd', 'e', 's'], ['s', 'e', 'm', 'a', 'i', 'n', 'e', 's'], ['v', 'e', 'n', 'd', 'r', 'e', 'd', 'i'], ['e', 'n', 'v', 'i', 'r', 'o', 'n'], ['f', 'e', 'v', 'r', 'i', 'e', 'r'], ['j', 'a', 'n', 'v', 'i', 'e', 'r'], ['j', 'u', 'i', 'l', 'l', 'e', 't'], ['m', 'i', 'n', 'u', 't', 'e', 's'], ['o', 'c', 't', 'o', 'b', 'r', 'e'], ['s', 'e', 'c', 'o', 'n', 'd', 'e'], ['s', 'e', 'm', 'a', 'i', 'n', 'e'], ['a', 'n', 'n', 'e', 'e', 's'], ['d', 'e', 'm', 'a', 'i', 'n'], ['h', 'e', 'u', 'r', 'e', 's'], ['i', 'l', ' ', 'y', ' ', 'a'], ['m', 'i', 'n', 'u', 't', 'e'], ['s', 'a', 'm', 'e', 'd', 'i'], ['a', 'n', 'n', 'e', 'e'], ['a', 'p', 'r', 'e', 's'], ['a', 'v', 'r', 'i', 'l'], ['h', 'e', 'u', 'r', 'e'], ['i', 'l', ' ', 'y', 'a'], ['j', 'e', 'u', 'd', 'i'], ['j', 'o', 'u', 'r', 's'], ['j', 'u', 'i', 'l', 'l'], ['l', 'u', 'n', 'd', 'i'], ['m', 'a', 'r', 'd', 'i'], ['a', 'o', 'u', 't'], ['d', 'a', 'n', 's'], ['f', 'e', 'v', 'r'], ['h', 'i', 'e', 'r'], ['j', 'a', 'n', 'v'], ['j', 'o', 'u', 'r'], ['j', 'u', 'i', 'l'], ['j', 'u', 'i', 'n'], ['m', 'a', 'r', 's'], ['m', 'o', 'i', 's'], ['s', 'e', 'p', 't'], ['a', 'n', 's'], ['a', 'o', 'u'], ['a', 'v', 'r'], ['d', 'e', 'c'], ['d', 'i', 'm'], ['f', 'e', 'v'], ['g', 'm', 't'], ['j', 'a', 'n'], ['j', 'e', 'u'], ['j', 'u', 'l'], ['j', 'u', 'n'], ['l', 'u', 'n'], ['m', 'a', 'i'], ['m', 'a', 'r'], ['m', 'e', 'r'], ['m', 'i', 'n'], ['n', 'o', 'v'], ['o', 'c', 't'], ['s', 'a', 'm'], ['s', 'e', 'm'], ['s', 'e', 'p'], ['u', 't', 'c'], ['v', 'e', 'n'], ['a', 'm'], ['a', 'n'], ['d', 'i'], ['e', 'n'], ['e', 'r'], ['e', 't'], ['j', 'e'], ['l', 'e'], ['l', 'u'], ['m', 'a'], ['m', 'e'], ['p', 'm'], ['s', 'a'], ['v', 'e'], [' '], ['\''], ['+'], [','], ['-'], ['.'], ['/'], [':'], [';'], ['@'], ['['], [']'], ['a'], ['h'], ['j'], ['m'], ['s'], ['z'], ['|']] }

/-- internal/data/fr.go: `fr_CD_Locale`. -/
def fr_CDLang : LangData := fr_CDDict

/-- internal/data/fr.go: `fr_CF_Locale`. -/
def fr_CFLang : LangData := fr_CFDict

/-- internal/data/fr.go: `fr_CG_Locale`. -/
def fr_CGLang : LangData := fr_CGDict

/-- internal/data/fr.go: `fr_CH_Locale`. -/
def fr_CHLang : LangData := fr_CHDict

/-- internal/data/fr.go: `fr_CI_Locale`. -/
def fr_CILang : LangData := fr_CIDict

/-- internal/data/fr.go: `fr_CM_Locale`. -/
def fr_CMLang : LangData := { fr_CMDict with
  knownWords :=
   [['l', 'a', ' ', 's', 'e', 'm', 'a', 'i', 'n', 'e', ' ', 'p', 'r', 'o', 'c', 'h', 'a', 'i', 'n', 'e'], ['l', 'a', ' ', 's', 'e', 'm', 'a', 'i', 'n', 'e', ' ', 'd', 'e', 'r', 'n', 'i', 'e', 'r', 'e'], ['l', '\'', 'a', 'n', 'n', 'e', 'e', ' ', 'p', 'r', 'o', 'c', 'h', 'a', 'i', 'n', 'e'], ['l', '\'', 'a', 'n', 'n', 'e', 'e', ' ', 'd', 'e', 'r', 'n', 'i', 'e', 'r', 'e'], ['l', 'e', ' ', 'm', 'o', 'i', 's', ' ', 'p', 'r', 'o', 'c', 'h', 'a', 'i', 'n'], ['c', 'e', 't', 't', 'e', ' ', 'm', 'i', 'n', 'u', 't', 'e', '-', 'c', 'i'], ['l', 'e', ' ', 'm', 'o', 'i', 's', ' ', 'd', 'e', 'r', 'n', 'i', 'e', 'r'], ['c', 'e', 't', 't', 'e', ' ', 'h', 'e', 'u', 'r', 'e', '-', 'c', 'i'], ['c', 'e', 't', 't', 'e', ' ', 's', 'e', 'm', 'a', 'i', 'n', 'e'], ['a', 'p', 'r', 'e', 's', '-', 'd', 'e', 'm', 'a', 'i', 'n'], ['a', 'u', 'j', 'o', 'u', 'r', 'd', '\'', 'h', 'u', 'i'], ['c', 'e', 't', 't', 'e', ' ', 'a', 'n', 'n', 'e', 'e'], ['a', 'v', 'a', 'n', 't', '-', 'h', 'i', 'e', 'r'], ['c', 'e', ' ', 'm', 'o', 'i', 's', '-', 'c', 'i'], ['m', 'a', 'i', 'n', 't', 'e', 'n', 'a', 'n', 't'], ['s', 'e', 'p', 't', 'e', 'm', 'b', 'r', 'e'], ['d', 'e', 'c', 'e', 'm', 'b', 'r', 'e'], ['d', 'i', 'm', 'a', 'n', 'c', 'h', 'e'], ['m', 'e', 'r', 'c', 'r', 'e', 'd', 'i'], ['n', 'o', 'v', 'e', 'm', 'b', 'r', 'e'], ['s', 'e', 'c', 'o', 'n', 'd', 'e', 's'], ['s', 'e', 'm', 'a', 'i', 'n', 'e', 's'], ['v', 'e', 'n', 'd', 'r', 'e', 'd', 'i'], ['e', 'n', 'v', 'i', 'r', 'o', 'n'], ['f', 'e', 'v', 'r', 'i', 'e', 'r'], ['j', 'a', 'n', 'v', 'i', 'e', 'r'], ['j', 'u', 'i', 'l', 'l', 'e', 't'], ['m', 'i', 'n', 'u', 't', 'e', 's'], ['o', 'c', 't', 'o', 'b', 'r', 'e'], ['s', 'e', 'c', 'o', 'n', 'd', 'e'], ['s', 'e', 'm', 'a', 'i', 'n', 'e'], ['a', 'n', 'n', 'e', 'e', 's'], ['d', 'e', 'm', 'a', 'i', 'n'], ['h', 'e', 'u', 'r', 'e', 's'], ['i', 'l', ' ', 'y', ' ', 'a'], ['m', 'i', 'n', 'u', 't', 'e'], ['s', 'a', 'm', 'e', 'd', 'i'], ['a', 'n', 'n', 'e', 'e'], ['a', 'p', 'r', 'e', 's'], ['a', 'v', 'r', 'i', 'l'], ['h', 'e', 'u', 'r', 'e'], ['i', 'l', ' ', 'y', 'a'], ['j', 'e', 'u', 'd', 'i'], ['j', 'o', 'u', 'r', 's'], ['l', 'u', 'n', 'd', 'i'], ['m', 'a', 'r', 'd', 'i'], ['m', 'a', 't', 'i', 'n'], ['a', 'o', 'u', 't'], ['d', 'a', 'n', 's'], ['f', 'e', 'v', 'r'], ['h', 'i', 'e', 'r'], ['j', 'a', 'n', 'v'], ['j', 'o', 'u', 'r'], ['j', 'u', 'i', 'l'], ['j', 'u', 'i', 'n'], ['m', 'a', 'r', 's'], ['m', 'o', 'i', 's'], ['s', 'e', 'p', 't'], ['s', 'o', 'i', 'r'], ['a', 'n', 's'], ['a', 'o', 'u'], ['a', 'v', 'r'], ['d', 'e', 'c'], ['d', 'i', 'm'], ['f', 'e', 'v'], ['g', 'm', 't'], ['j', 'a', 'n'], ['j', 'e', 'u'], ['j', 'u', 'l'], ['j', 'u', 'n'], ['l', 'u', 'n'], ['m', 'a', 'i'], ['m', 'a', 'r'], ['m', 'a', 't'], ['m', 'e', 'r'], ['m', 'i', 'n'], ['n', 'o', 'v'], ['o', 'c', 't'], ['s', 'a', 'm'], ['s', 'e', 'm'], ['s', 'e', 'p'], ['u', 't', 'c'], ['v', 'e', 'n'], ['a', 'm'], ['a', 'n'], ['d', 'i'], ['e', 'n'], ['e', 'r'], ['e', 't'], ['j', 'e'], ['l', 'e'], ['l', 'u'], ['m', 'a'], ['m', 'e'], ['p', 'm'], ['s', 'a'], ['v', 'e'], [' '], ['\''], ['+'], [','], ['-'], ['.'], ['/'], [':'], [';'], ['@'], ['['], [']'], ['a'], ['h'], ['j'], ['m'], ['s'], ['z'], ['|']] }

/-- internal/data/fr.go: `fr_DJ_Locale`. -/
def fr_DJLang : LangData := fr_DJDict

/-- internal/data/fr.go: `fr_DZ_Locale`. -/
def fr_DZLang : LangData := fr_DZDict

/-- internal/data/fr.go: `fr_GA_Locale`. -/
def fr_GALang : LangData := fr_GADict

/-- internal/data/fr.go: `fr_GF_Locale`. -/
def fr_GFLang : LangData := fr_GFDict

/-- internal/data/fr.go: `fr_GN_Locale`. -/
def fr_GNLang : LangData := fr_GNDict

/-- internal/data/fr.go: `fr_GP_Locale`. -/
def fr_GPLang : LangData := fr_GPDict

/-- internal/data/fr.go: `fr_GQ_Locale`. -/
def fr_GQLang : LangData := fr_GQDict

/-- internal/data/fr.go: `fr_HT_Locale`. -/
def fr_HTLang : LangData := { fr_HTDict with
  knownWords :=
   [['l', 'a', ' ', 's', 'e', 'm', 'a', 'i', 'n', 'e', ' ', 'p', 'r', 'o', 'c', 'h', 'a', 'i', 'n', 'e'], ['l', 'a', ' ', 's', 'e', 'm', 'a', 'i', 'n', 'e', ' ', 'd', 'e', 'r', 'n', 'i', 'e', 'r', 'e'], ['l', '\'', 'a', 'n', 'n', 'e', 'e', ' ', 'p', 'r', 'o', 'c', 'h', 'a', 'i', 'n', 'e'], ['l', '\'', 'a', 'n', 'n', 'e', 'e', ' ', 'd', 'e', 'r', 'n', 'i', 'e', 'r', 'e'], ['l', 'e', ' ', 'm', 'o', 'i', 's', ' ', 'p', 'r', 'o', 'c', 'h', 'a', 'i', 'n'], ['c', 'e', 't', 't', 'e', ' ', 'm', 'i', 'n', 'u', 't', 'e', '-', 'c', 'i'], ['l', 'e', ' ', 'm', 'o', 'i', 's', ' ', 'd', 'e', 'r', 'n', 'i', 'e', 'r'], ['c', 'e', 't', 't', 'e', ' ', 'h', 'e', 'u', 'r', 'e', '-', 'c', 'i'], ['c', 'e', 't', 't', 'e', ' ', 's', 'e', 'm', 'a', 'i', 'n', 'e'], ['a', 'p', 'r', 'e', 's', '-', 'd', 'e', 'm', 'a', 'i', 'n'], ['a', 'u', 'j', 'o', 'u', 'r', 'd', '\'', 'h', 'u', 'i'], ['c', 'e', 't', 't', 'e', ' ', 'a', 'n', 'n', 'e', 'e'], ['a', 'v', 'a', 'n', 't', '-', 'h', 'i', 'e', 'r'], ['c', 'e', ' ', 'm', 'o', 'i', 's', '-', 'c', 'i'], ['m', 'a', 'i', 'n', 't', 'e', 'n', 'a', 'n', 't'], ['s', 'e', 'p', 't', 'e', 'm', 'b', 'r', 'e'], ['d', 'e', 'c', 'e', 'm', 'b', 'r', 'e'], ['d', 'i', 'm', 'a', 'n', 'c', 'h', 'e'], ['m', 'e', 'r', 'c', 'r', 'e', 'd', 'i'], ['n', 'o', 'v', 'e', 'm', 'b', 'r', 'e'], ['s', 'e', 'c', 'o', 'n', 'd', 'e', 's'], ['s', 'e', 'm', 'a', 'i', 'n', 'e', 's'], ['v', 'e', 'n', 'd', 'r', 'e', 'd', 'i'], ['e', 'n', 'v', 'i', 'r', 'o', 'n'], ['f', 'e', 'v', 'r', 'i', 'e', 'r'], ['j', 'a', 'n', 'v', 'i', 'e', 'r'], ['j', 'u', 'i', 'l', 'l', 'e', 't'], ['m', 'i', 'n', 'u', 't', 'e', 's'], ['o', 'c', 't', 'o', 'b', 'r', 'e'], ['s', 'e', 'c', 'o', 'n', 'd', 'e'], ['s', 'e', 'm', 'a', 'i', 'n', 'e'], ['a', 'n', 'n', 'e', 'e', 's'], ['d', 'e', 'm', 'a', 'i', 'n'], ['h', 'e', 'u', 'r', 'e', 's'], ['i', 'l', ' ', 'y', ' ', 'a'], ['m', 'i', 'n', 'u', 't', 'e'], ['s', 'a', 'm', 'e', 'd', 'i'], ['a', 'n', 'n', 'e', 'e'], ['a', 'p', 'r', 'e', 's'], ['a', 'v', 'r', 'i', 'l'], ['h', 'e', 'u', 'r', 'e'], ['i', 'l', ' ', 'y', 'a'], ['j', 'e', 'u', 'd', 'i'], ['j', 'o', 'u', 'r', 's'], ['l', 'u', 'n', 'd', 'i'], ['m', 'a', 'r', 'd', 'i'], ['a', 'o', 'u', 't'], ['d', 'a', 'n', 's'], ['f', 'e', 'v', 'r'], ['h', 'i', 'e', 'r'], ['j', 'a', 'n', 'v'], ['j', 'o', 'u', 'r'], ['j', 'u', 'i', 'l'], ['j', 'u', 'i', 'n'], ['m', 'a', 'r', 's'], ['m', 'o', 'i', 's'], ['s', 'e', 'p', 't'], ['a', 'n', 's'], ['a', 'o', 'u'], ['a', 'v', 'r'], ['d', 'e', 'c'], ['d', 'i', 'm'], ['f', 'e', 'v'], ['g', 'm', 't'], ['j', 'a', 'n'], ['j', 'e', 'u'], ['j', 'u', 'l'], ['j', 'u', 'n'], ['l', 'u', 'n'], ['m', 'a', 'i'], ['m', 'a', 'r'], ['m', 'e', 'r'], ['m', 'i', 'n'], ['n', 'o', 'v'], ['o', 'c', 't'], ['s', 'a', 'm'], ['s', 'e', 'c'], ['s', 'e', 'm'], ['s', 'e', 'p'], ['u', 't', 'c'], ['v', 'e', 'n'], ['a', 'm'], ['a', 'n'], ['d', 'i'], ['e', 'n'], ['e', 'r'], ['e', 't'], ['h', 'r'], ['j', 'e'], ['j', 'r'], ['l', 'e'], ['l', 'u'], ['m', 'a'], ['m', 'e'], ['p', 'm'], ['s', 'a'], ['v', 'e'], [' '], ['\''], ['+'], [','], ['-'], ['.'], ['/'], [':'], [';'], ['@'], ['['], [']'], ['a'], ['h'], ['j'], ['m'], ['s'], ['z'], ['|']] }

/-- internal/data/fr.go: `fr_KM_Locale`. -/
def fr_KMLang : LangData := fr_KMDict

/-- internal/data/fr.go: `fr_LU_Locale`. -/
def fr_LULang : LangData := fr_LUDict

/-- internal/data/fr.go: `fr_MA_Locale`. -/
def fr_MALang : LangData := { fr_MADict with
  knownWords :=
   [['l', 'a', ' ', 's', 'e', 'm', 'a', 'i', 'n', 'e', ' ', 'p', 'r', 'o', 'c', 'h', 'a', 'i', 'n', 'e'], ['l', 'a', ' ', 's', 'e', 'm', 'a', 'i', 'n', 'e', ' ', 'd', 'e', 'r', 'n', 'i', 'e', 'r', 'e'], ['l', '\'', 'a', 'n', 'n', 'e', 'e', ' ', 'p', 'r', 'o', 'c', 'h', 'a', 'i', 'n', 'e'], ['l', '\'', 'a', 'n', 'n', 'e', 'e', ' ', 'd', 'e', 'r', 'n', 'i', 'e', 'r', 'e'], ['l', 'e', ' ', 'm', 'o', 'i', 's', ' ', 'p', 'r', 'o', 'c', 'h', 'a', 'i', 'n'], ['c', 'e', 't', 't', 'e', ' ', 'm', 'i', 'n', 'u', 't', 'e', '-', 'c', 'i'], ['l', 'e', ' ', 'm', 'o', 'i', 's', ' ', 'd', 'e', 'r', 'n', 'i', 'e', 'r'], ['c', 'e', 't', 't', 'e', ' ', 'h', 'e', 'u', 'r', 'e', '-', 'c', 'i'], ['c', 'e', 't', 't', 'e', ' ', 's', 'e', 'm', 'a', 'i', 'n', 'e'], ['a', 'p', 'r', 'e', 's', '-', 'd', 'e', 'm', 'a', 'i', 'n'], ['a', 'u', 'j', 'o', 'u', 'r', 'd', '\'', 'h', 'u', 'i'], ['c', 'e', 't', 't', 'e', ' ', 'a', 'n', 'n', 'e', 'e'], ['a', 'v', 'a', 'n', 't', '-', 'h', 'i', 'e', 'r'], ['c', 'e', ' ', 'm', 'o', 'i', 's', '-', 'c', 'i'], ['m', 'a', 'i', 'n', 't', 'e', 'n', 'a', 'n', 't'], ['s', 'e', 'p', 't', 'e', 'm', 'b', 'r', 'e'], ['d', 'e', 'c', 'e', 'm', 'b', 'r', 'e'], ['d', 'i', 'm', 'a', 'n', 'c', 'h', 'e'], ['m', 'e', 'r', 'c', 'r', 'e', 'd', 'i'], ['n', 'o', 'v', 'e', 'm', 'b', 'r', 'e'], ['s', 'e', 'c', 'o', 'n', 'd', 'e', 's'], ['s', 'e', 'm', 'a', 'i', 'n', 'e', 's'], ['v', 'e', 'n', 'd', 'r', 'e', 'd', 'i'], ['e', 'n', 'v', 'i', 'r', 'o', 'n'], ['f', 'e', 'v', 'r', 'i', 'e', 'r'], ['j', 'a', 'n', 'v', 'i', 'e', 'r'], ['j', 'u', 'i', 'l', 'l', 'e', 't'], ['m', 'i', 'n', 'u', 't', 'e', 's'], ['o', 'c', 't', 'o', 'b', 'r', 'e'], ['s', 'e', 'c', 'o', 'n', 'd', 'e'], ['s', 'e', 'm', 'a', 'i', 'n', 'e'], ['a', 'n', 'n', 'e', 'e', 's'], ['d', 'e', 'm', 'a', 'i', 'n'], ['h', 'e', 'u', 'r', 'e', 's'], ['i', 'l', ' ', 'y', ' ', 'a'], ['m', 'i', 'n', 'u', 't', 'e'], ['s', 'a', 'm', 'e', 'd', 'i'], ['a', 'n', 'n', 'e', 'e'], ['a', 'p', 'r', 'e', 's'], ['a', 'v', 'r', 'i', 'l'], ['h', 'e', 'u', 'r', 'e'], ['i', 'l', ' ', 'y', 'a'], ['j', 'e', 'u', 'd', 'i'], ['j', 'o', 'u', 'r', 's'], ['l', 'u', 'n', 'd', 'i'], ['m', 'a', 'r', 'd', 'i'], ['a', 'o', 'u', 't'], ['d', 'a', 'n', 's'], ['f', 'e', 'v', 'r'], ['h', 'i', 'e', 'r'], ['j', 'a', 'n', 'v'], ['j', 'o', 'u', 'r'], ['j', 'u', 'i', 'l'], ['j', 'u', 'i', 'n'], ['m', 'a', 'r', 's'], ['m', 'o', 'i', 's'], ['s', 'e', 'p', 't'], ['a', 'n', 's'], ['a', 'o', 'u'], ['a', 'v', 'r'], ['d', 'e', 'c'], ['d', 'i', 'm'], ['f', 'e', 'v'], ['g', 'm', 't'], ['j', 'a', 'n'], ['j', 'e', 'u'], ['j', 'u', 'i'], ['j', 'u', 'l'], ['j', 'u', 'n'], ['l', 'u', 'n'], ['m', 'a', 'i'], ['m', 'a', 'r'], ['m', 'e', 'r'], ['m', 'i', 'n'], ['n', 'o', 'v'], ['o', 'c', 't'], ['s', 'a', 'm'], ['s', 'e', 'm'], ['s', 'e', 'p'], ['u', 't', 'c'], ['v', 'e', 'n'], ['a', 'm'], ['a', 'n'], ['d', 'i'], ['e', 'n'], ['e', 'r'], ['e', 't'], ['j', 'e'], ['l', 'e'], ['l', 'u'], ['m', 'a'], ['m', 'e'], ['p', 'm'], ['s', 'a'], ['v', 'e'], [' '], ['\''], ['+'], [','], ['-'], ['.'], ['/'], [':'], [';'], ['@'], ['['], [']'], ['a'], ['h'], ['j'], ['m'], ['s'], ['z'], ['|']] }

/-- internal/data/fr.go: `fr_MC_Locale`. -/
def fr_MCLang : LangData := fr_MCDict

/-- internal/data/fr.go: `fr_MF_Locale`. -/
def fr_MFLang : LangData := fr_MFDict

/-- internal/data/fr.go: `fr_MG_Locale`. -/
def fr_MGLang : LangData := fr_MGDict

/-- internal/data/fr.go: `fr_ML_Locale`. -/
def fr_MLLang : LangData := fr_MLDict

/-- internal/data/fr.go: `fr_MQ_Locale`. -/
def fr_MQLang : LangData := fr_MQDict

/-- internal/data/fr.go: `fr_MR_Locale`. -/
def fr_MRLang : LangData := fr_MRDict

/-- internal/data/fr.go: `fr_MU_Locale`. -/
def fr_MULang : LangData := fr_MUDict

/-- internal/data/fr.go: `fr_NC_Locale`. -/
def fr_NCLang : LangData := fr_NCDict

/-- internal/data/fr.go: `fr_NE_Locale`. -/
def fr_NELang : LangData := fr_NEDict

/-- internal/data/fr.go: `fr_PF_Locale`. -/
def fr_PFLang : LangData := fr_PFDict

/-- internal/data/fr.go: `fr_PM_Locale`. -/
def fr_PMLang : LangData := fr_PMDict

/-- internal/data/fr.go: `fr_RE_Locale`. -/
def fr_RELang : LangData := fr_REDict

/-- internal/data/fr.go: `fr_RW_Locale`. -/
def fr_RWLang : LangData := fr_RWDict

/-- internal/data/fr.go: `fr_SC_Locale`. -/
def fr_SCLang : LangData := fr_SCDict

/-- internal/data/fr.go: `fr_SN_Locale`. -/
def fr_SNLang : LangData := fr_SNDict

/-- internal/data/fr.go: `fr_SY_Locale`. -/
def fr_SYLang : LangData := fr_SYDict

/-- internal/data/fr.go: `fr_TD_Locale`. -/
def fr_TDLang : LangData := fr_TDDict

/-- internal/data/fr.go: `fr_TG_Locale`. -/
def fr_TGLang : LangData := fr_TGDict

/-- internal/data/fr.go: `fr_TN_Locale`. -/
def fr_TNLang : LangData := fr_TNDict

/-- internal/data/fr.go: `fr_VU_Locale`. -/
def fr_VULang : LangData := fr_VUDict

/-- internal/data/fr.go: `fr_WF_Locale`. -/
def fr_WFLang : LangData := fr_WFDict

/-- internal/data/fr.go: `fr_YT_Locale`. -/
def fr_YTLang : LangData := fr_YTDict

/-- internal/data/fur.go: `fur_Locale`. -/
def furLang : LangData := { furDict with
  relativeRegexes :=
   [(.seqs [.grp 1 (.number), .lit [' ', 's', 'e', 't', 'e', 'm', 'a', 'n', 'i', 's', ' ', 'i', 'n', 'd', 'a', 'u', 'r']], [.ref 1, .lit [' ', 'w', 'e', 'e', 'k', ' ', 'a', 'g', 'o']]),
    (.seqs [.grp 1 (.number), .lit [' ', 's', 'e', 't', 'e', 'm', 'a', 'n', 'e', ' ', 'i', 'n', 'd', 'a', 'u', 'r']], [.ref 1, .lit [' ', 'w', 'e', 'e', 'k', ' ', 'a', 'g', 'o']]),
    (.seqs [.grp 1 (.number), .lit [' ', 'z', 'o', 'r', 'n', 'a', 'd', 'i', 's', ' ', 'i', 'n', 'd', 'a', 'u', 'r']], [.ref 1, .lit [' ', 'd', 'a', 'y', ' ', 'a', 'g', 'o']]),
    (.seqs [.lit ['c', 'a', ' ', 'd', 'i', ' '], .grp 1 (.number), .lit [' ', 's', 'e', 't', 'e', 'm', 'a', 'n', 'i', 's']], [.lit ['i', 'n', ' '], .ref 1, .lit [' ', 'w', 'e', 'e', 'k']]),
    (.seqs [.grp 1 (.number), .lit [' ', 's', 'e', 'c', 'o', 'n', 't', 's', ' ', 'i', 'n', 'd', 'a', 'u', 'r']], [.ref 1, .lit [' ', 's', 'e', 'c', 'o', 'n', 'd', ' ', 'a', 'g', 'o']]),
    (.seqs [.grp 1 (.number), .lit [' ', 'z', 'o', 'r', 'n', 'a', 'd', 'e', ' ', 'i', 'n', 'd', 'a', 'u', 'r']], [.ref 1, .lit [' ', 'd', 'a', 'y', ' ', 'a', 'g', 'o']]),
    (.seqs [.lit ['c', 'a', ' ', 'd', 'i', ' '], .grp 1 (.number), .lit [' ', 's', 'e', 't', 'e', 'm', 'a', 'n', 'e']], [.lit ['i', 'n', ' '], .ref 1, .lit [' ', 'w', 'e', 'e', 'k']]),
    (.seqs [.lit ['c', 'a', ' ', 'd', 'i', ' '], .grp 1 (.number), .lit [' ', 'z', 'o', 'r', 'n', 'a', 'd', 'i', 's']], [.lit ['i', 'n', ' '], .ref 1, .lit [' ', 'd', 'a', 'y']]),
    (.seqs [.grp 1 (.number), .lit [' ', 'm', 'i', 'n', 'u', 't', 's', ' ', 'i', 'n', 'd', 'a', 'u', 'r']], [.ref 1, .lit [' ', 'm', 'i', 'n', 'u', 't', 'e', ' ', 'a', 'g', 'o']]),
    (.seqs [.grp 1 (.number), .lit [' ', 's', 'e', 'c', 'o', 'n', 't', ' ', 'i', 'n', 'd', 'a', 'u', 'r']], [.ref 1, .lit [' ', 's', 'e', 'c', 'o', 'n', 'd', ' ', 'a', 'g', 'o']]),
    (.seqs [.lit ['c', 'a', ' ', 'd', 'i', ' '], .grp 1 (.number), .lit [' ', 's', 'e', 'c', 'o', 'n', 't', 's']], [.lit ['i', 'n', ' '], .ref 1, .lit [' ', 's', 'e', 'c', 'o', 'n', 'd']]),
    (.seqs [.lit ['c', 'a', ' ', 'd', 'i', ' '], .grp 1 (.number), .lit [' ', 'z', 'o', 'r', 'n', 'a', 'd', 'e']], [.lit ['i', 'n', ' '], .ref 1, .lit [' ', 'd', 'a', 'y']]),
    (.seqs [.grp 1 (.number), .lit [' ', 'm', 'i', 'n', 'u', 't', ' ', 'i', 'n', 'd', 'a', 'u', 'r']], [.ref 1, .lit [' ', 'm', 'i', 'n', 'u', 't', 'e', ' ', 'a', 'g', 'o']]),
    (.seqs [.lit ['c', 'a', ' ', 'd', 'i', ' '], .grp 1 (.number), .lit [' ', 'm', 'i', 'n', 'u', 't', 's']], [.lit ['i', 'n', ' '], .ref 1, .lit [' ', 'm', 'i', 'n', 'u', 't', 'e']]),
    (.seqs [.lit ['c', 'a', ' ', 'd', 'i', ' '], .grp 1 (.number), .lit [' ', 's', 'e', 'c', 'o', 'n', 't']], [.lit ['i', 'n', ' '], .ref 1, .lit [' ', 's', 'e', 'c', 'o', 'n', 'd']]),
    (.seqs [.grp 1 (.number), .lit [' ', 'a', 'g', 'n', 's', ' ', 'i', 'n', 'd', 'a', 'u', 'r']], [.ref 1, .lit [' ', 'y', 'e', 'a', 'r', ' ', 'a', 'g', 'o']]),
    (.seqs [.grp 1 (.number), .lit [' ', 'o', 'r', 'i', 's', ' ', 'i', 'n', 'd', 'a', 'u', 'r']], [.ref 1, .lit [' ', 'h', 'o', 'u', 'r', ' ', 'a', 'g', 'o']]),
    (.seqs [.lit ['c', 'a', ' ', 'd', 'i', ' '], .grp 1 (.number), .lit [' ', 'm', 'i', 'n', 'u', 't']], [.lit ['i', 'n', ' '], .ref 1, .lit [' ', 'm', 'i', 'n', 'u', 't', 'e']]),
    (.seqs [.grp 1 (.number), .lit [' ', 'm', 'e', 's', ' ', 'i', 'n', 'd', 'a', 'u', 'r']], [.ref 1, .lit [' ', 'm', 'o', 'n', 't', 'h', ' ', 'a', 'g', 'o']]),
    (.seqs [.grp 1 (.number), .lit [' ', 'o', 'r', 'e', ' ', 'i', 'n', 'd', 'a', 'u', 'r']], [.ref 1, .lit [' ', 'h', 'o', 'u', 'r', ' ', 'a', 'g', 'o']]),
    (.seqs [.lit ['c', 'a', ' ', 'd', 'i', ' '], .grp 1 (.number), .lit [' ', 'a', 'g', 'n', 's']], [.lit ['i', 'n', ' '], .ref 1, .lit [' ', 'y', 'e', 'a', 'r']]),
    (.seqs [.lit ['c', 'a', ' ', 'd', 'i', ' '], .grp 1 (.number), .lit [' ', 'o', 'r', 'i', 's']], [.lit ['i', 'n', ' '], .ref 1, .lit [' ', 'h', 'o', 'u', 'r']]),
    (.seqs [.grp 1 (.number), .lit [' ', 'a', 'n', ' ', 'i', 'n', 'd', 'a', 'u', 'r']], [.ref 1, .lit [' ', 'y', 'e', 'a', 'r', ' ', 'a', 'g', 'o']]),
    (.seqs [.lit ['c', 'a', ' ', 'd', 'i', ' '], .grp 1 (.number), .lit [' ', 'm', 'e', 's']], [.lit ['i', 'n', ' '], .ref 1, .lit [' ', 'm', 'o', 'n', 't', 'h']]),
    (.seqs [.lit ['c', 'a', ' ', 'd', 'i', ' '], .grp 1 (.number), .lit [' ', 'o', 'r', 'e']], [.lit ['i', 'n', ' '], .ref 1, .lit [' ', 'h', 'o', 'u', 'r']]),
    (.seqs [.lit ['c', 'a', ' ', 'd', 'i', ' '], .grp 1 (.number), .lit [' ', 'a', 'n']], [.lit ['i', 'n', ' '], .ref 1, .lit [' ', 'y', 'e', 'a', 'r']])],
  rxCombined := some (.seqs [.grp 1 (.alts [.bos, .cls true [.letter, .mark, .digit], .lit ['_']]), .grp 2 (.alts [.seqs [.number, .lit [' ', 's', 'e', 't', 'e', 'm', 'a', 'n', 'i', 's', ' ', 'i', 'n', 'd', 'a', 'u', 'r']], .seqs [.number, .lit [' ', 's', 'e', 't', 'e', 'm', 'a', 'n', 'e', ' ', 'i', 'n', 'd', 'a', 'u', 'r']], .seqs [.number, .lit [' ', 'z', 'o', 'r', 'n', 'a', 'd', 'i', 's', ' ', 'i', 'n', 'd', 'a', 'u', 'r']], .seqs [.lit ['c', 'a', ' ', 'd', 'i', ' '], .number, .lit [' ', 's', 'e', 't', 'e', 'm', 'a', 'n', 'i', 's']], .seqs [.number, .lit [' ', 's', 'e', 'c', 'o', 'n', 't', 's', ' ', 'i', 'n', 'd', 'a', 'u', 'r']], .seqs [.number, .lit [' ', 'z', 'o', 'r', 'n', 'a', 'd', 'e', ' ', 'i', 'n', 'd', 'a', 'u', 'r']], .seqs [.lit ['c', 'a', ' ', 'd', 'i', ' '], .number, .lit [' ', 's', 'e', 't', 'e', 'm', 'a', 'n', 'e']], .seqs [.lit ['c', 'a', ' ', 'd', 'i', ' '], .number, .lit [' ', 'z', 'o', 'r', 'n', 'a', 'd', 'i', 's']], .seqs [.number, .lit [' ', 'm', 'i', 'n', 'u', 't', 's', ' ', 'i', 'n', 'd', 'a', 'u', 'r']], .seqs [.number, .lit [' ', 's', 'e', 'c', 'o', 'n', 't', ' ', 'i', 'n', 'd', 'a', 'u', 'r']], .seqs [.lit ['c', 'a', ' ', 'd', 'i', ' '], .number, .lit [' ', 's', 'e', 'c', 'o', 'n', 't', 's']], .seqs [.lit ['c', 'a', ' ', 'd', 'i', ' '], .number, .lit [' ', 'z', 'o', 'r', 'n', 'a', 'd', 'e']], .seqs [.number, .lit [' ', 'm', 'i', 'n', 'u', 't', ' ', 'i', 'n', 'd', 'a', 'u', 'r']], .seqs [.lit ['c', 'a', ' ', 'd', 'i', ' '], .number, .lit [' ', 'm', 'i', 'n', 'u', 't', 's']], .seqs [.lit ['c', 'a', ' ', 'd', 'i', ' '], .number, .lit [' ', 's', 'e', 'c', 'o', 'n', 't']], .seqs [.number, .lit [' ', 'a', 'g', 'n', 's', ' ', 'i', 'n', 'd', 'a', 'u', 'r']], .seqs [.number, .lit [' ', 'o', 'r', 'i', 's', ' ', 'i', 'n', 'd', 'a', 'u', 'r']], .seqs [.lit ['c', 'a', ' ', 'd', 'i', ' '], .number, .lit [' ', 'm', 'i', 'n', 'u', 't']], .seqs [.number, .lit [' ', 'm', 'e', 's', ' ', 'i', 'n', 'd', 'a', 'u', 'r']], .seqs [.number, .lit [' ', 'o', 'r', 'e', ' ', 'i', 'n', 'd', 'a', 'u', 'r']], .seqs [.lit ['c', 'a', ' ', 'd', 'i', ' '], .number, .lit [' ', 'a', 'g', 'n', 's']], .seqs [.lit ['c', 'a', ' ', 'd', 'i', ' '], .number, .lit [' ', 'o', 'r', 'i', 's']], .seqs [.number, .lit [' ', 'a', 'n', ' ', 'i', 'n', 'd', 'a', 'u', 'r']], .seqs [.lit ['c', 'a', ' ', 'd', 'i', ' '], .number, .lit [' ', 'm', 'e', 's']], .seqs [.lit ['c', 'a', ' ', 'd', 'i', ' '], .number, .lit [' ', 'o', 'r', 'e']], .seqs [.lit ['c', 'a', ' ', 'd', 'i', ' '], .number, .lit [' ', 'a', 'n']]]), .grp 3 (.alts [.eos, .cls true [.letter, .mark, .digit], .lit ['_']])], 3),
  rxExact := some (.seqs [.bos, .grp 1 (.alts [.seqs [.number, .lit [' ', 's', 'e', 't', 'e', 'm', 'a', 'n', 'i', 's', ' ', 'i', 'n', 'd', 'a', 'u', 'r']], .seqs [.number, .lit [' ', 's', 'e', 't', 'e', 'm', 'a', 'n', 'e', ' ', 'i', 'n', 'd', 'a', 'u', 'r']], .seqs [.number, .lit [' ', 'z', 'o', 'r', 'n', 'a', 'd', 'i', 's', ' ', 'i', 'n', 'd', 'a', 'u', 'r']], .seqs [.lit ['c', 'a', ' ', 'd', 'i', ' '], .number, .lit [' ', 's', 'e', 't', 'e', 'm', 'a', 'n', 'i', 's']], .seqs [.number, .lit [' ', 's', 'e', 'c', 'o', 'n', 't', 's', ' ', 'i', 'n', 'd', 'a', 'u', 'r']], .seqs [.number, .lit [' ', 'z', 'o', 'r', 'n', 'a', 'd', 'e', ' ', 'i', 'n', 'd', 'a', 'u', 'r']], .seqs [.lit ['c', 'a', ' ', 'd', 'i', ' '], .number, .lit [' ', 's', 'e', 't', 'e', 'm', 'a', 'n', 'e']], .seqs [.lit ['c', 'a', ' ', 'd', 'i', ' '], .number, .lit [' ', 'z', 'o', 'r', 'n', 'a', 'd', 'i', 's']], .seqs [.number, .lit [' ', 'm', 'i', 'n', 'u', 't', 's', ' ', 'i', 'n', 'd', 'a', 'u', 'r']], .seqs [.number, .lit [' ', 's', 'e', 'c', 'o', 'n', 't', ' ', 'i', 'n', 'd', 'a', 'u', 'r']], .seqs [.lit ['c', 'a', ' ', 'd', 'i', ' '], .number, .lit [' ', 's', 'e', 'c', 'o', 'n', 't', 's']], .seqs [.lit ['c', 'a', ' ', 'd', 'i', ' '], .number, .lit [' ', 'z', 'o', 'r', 'n', 'a', 'd', 'e']], .seqs [.number, .lit [' ', 'm', 'i', 'n', 'u', 't', ' ', 'i', 'n', 'd', 'a', 'u', 'r']], .seqs [.lit ['c', 'a', ' ', 'd', 'i', ' '], .number, .lit [' ', 'm', 'i', 'n', 'u', 't', 's']], .seqs [.lit ['c', 'a', ' ', 'd', 'i', ' '], .number, .lit [' ', 's', 'e', 'c', 'o', 'n', 't']], .seqs [.number, .lit [' ', 'a', 'g', 'n', 's', ' ', 'i', 'n', 'd', 'a', 'u', 'r']], .seqs [.number, .lit [' ', 'o', 'r', 'i', 's', ' ', 'i', 'n', 'd', 'a', 'u', 'r']], .seqs [.lit ['c', 'a', ' ', 'd', 'i', ' '], .number, .lit [' ', 'm', 'i', 'n', 'u', 't']], .seqs [.number, .lit [' ', 'm', 'e', 's', ' ', 'i', 'n', 'd', 'a', 'u', 'r']], .seqs [.number, .lit [' ', 'o', 'r', 'e', ' ', 'i', 'n', 'd', 'a', 'u', 'r']], .seqs [.lit ['c', 'a', ' ', 'd', 'i', ' '], .number, .lit [' ', 'a', 'g', 'n', 's']], .seqs [.lit ['c', 'a', ' ', 'd', 'i', ' '], .number, .lit [' ', 'o', 'r', 'i', 's']], .seqs [.number, .lit [' ', 'a', 'n', ' ', 'i', 'n', 'd', 'a', 'u', 'r']], .seqs [.lit ['c', 'a', ' ', 'd', 'i', ' '], .number, .lit [' ', 'm', 'e', 's']], .seqs [.lit ['c', 'a', ' ', 'd', 'i', ' '], .number, .lit [' ', 'o', 'r', 'e']], .seqs [.lit ['c', 'a', ' ', 'd', 'i', ' '], .number, .lit [' ', 'a', 'n']]]), .eos]),
  knownWords :=
   [['t', 'h', 'i', 's', ' ', 'm', 'i', 'n', 'u', 't', 'e'], ['l', 'a', 's', 't', ' ', 'm', 'o', 'n', 't', 'h'], ['n', 'e', 'x', 't', ' ', 'm', 'o', 'n', 't', 'h'], ['t', 'h', 'i', 's', ' ', 'm', 'o', 'n', 't', 'h'], ['l', 'a', 's', 't', ' ', 'w', 'e', 'e', 'k'], ['l', 'a', 's', 't', ' ', 'y', 'e', 'a', 'r'], ['n', 'e', 'x', 't', ' ', 'w', 'e', 'e', 'k'], ['n', 'e', 'x', 't', ' ', 'y', 'e', 'a', 'r'], ['t', 'h', 'i', 's', ' ', 'h', 'o', 'u', 'r'], ['t', 'h', 'i', 's', ' ', 'w', 'e', 'e', 'k'], ['t', 'h', 'i', 's', ' ', 'y', 'e', 'a', 'r'], ['d', 'i', 'c', 'e', 'm', 'b', 'a', 'r'], ['n', 'o', 'v', 'e', 'm', 'b', 'a', 'r'], ['s', 'e', 't', 'e', 'm', 'a', 'n', 'e'], ['s', 'e', 't', 'e', 'm', 'b', 'a', 'r'], ['d', 'o', 'm', 'e', 'n', 'i', 'e'], ['m', 'a', 'r', 't', 'a', 'r', 's'], ['m', 'i', 'e', 'r', 'c', 'u', 's'], ['f', 'e', 'v', 'r', 'a', 'r'], ['o', 't', 'u', 'b', 'a', 'r'], ['s', 'a', 'b', 'i', 'd', 'e'], ['s', 'e', 'c', 'o', 'n', 't'], ['v', 'i', 'n', 'a', 'r', 's'], ['a', 'v', 'o', 's', 't'], ['a', 'v', 'r', 'i', 'l'], ['d', 'o', 'm', 'a', 'n'], ['j', 'o', 'i', 'b', 'e'], ['l', 'u', 'n', 'i', 's'], ['m', 'i', 'n', 'u', 't'], ['z', 'e', 'n', 'a', 'r'], ['j', 'u', 'g', 'n'], ['m', 'a', 'r', 'c'], ['a', 'v', 'o'], ['a', 'v', 'r'], ['d', 'i', 'c'], ['d', 'o', 'm'], ['f', 'e', 'v'], ['g', 'm', 't'], ['j', 'o', 'i'], ['j', 'u', 'g'], ['l', 'u', 'i'], ['l', 'u', 'n'], ['m', 'a', 'i'], ['m', 'a', 'r'], ['m', 'e', 's'], ['m', 'i', 'e'], ['n', 'o', 'v'], ['n', 'o', 'w'], ['o', 'r', 'e'], ['o', 't', 'u'], ['s', 'a', 'b'], ['s', 'e', 't'], ['u', 't', 'c'], ['v', 'i', 'n'], ['v', 'u', 'e'], ['z', 'e', 'n'], ['a', 'm'], ['a', 'n'], ['d', 'i'], ['i', 'r'], ['p', 'm'], [' '], ['\''], ['+'], [','], ['-'], ['.'], ['/'], [':'], [';'], ['@'], ['['], [']'], ['a'], ['p'], ['z'], ['|']] }

/-- internal/data/fy.go: `fy_Locale`. -/
def fyLang : LangData := { fyDict with
  relativeRegexes :=
   [(.seqs [.grp 1 (.number), .lit [' ', 's', 'e', 'k', 'o', 'n', 'd', 'e', 'n', ' ', 'l', 'y', 'n']], [.ref 1, .lit [' ', 's', 'e', 'c', 'o', 'n', 'd', ' ', 'a', 'g', 'o']]),
    (.seqs [.lit ['o', 'e', 'r', ' '], .grp 1 (.number), .lit [' ', 's', 'e', 'k', 'o', 'n', 'd', 'e', 'n']], [.lit ['i', 'n', ' '], .ref 1, .lit [' ', 's', 'e', 'c', 'o', 'n', 'd']]),
    (.seqs [.grp 1 (.number), .lit [' ', 'm', 'i', 'n', 'u', 't', 'e', 'n', ' ', 'l', 'y', 'n']], [.ref 1, .lit [' ', 'm', 'i', 'n', 'u', 't', 'e', ' ', 'a', 'g', 'o']]),
    (.seqs [.grp 1 (.number), .lit [' ', 'm', 'o', 'a', 'n', 'n', 'e', 'n', ' ', 'l', 'y', 'n']], [.ref 1, .lit [' ', 'm', 'o', 'n', 't', 'h', ' ', 'a', 'g', 'o']]),
    (.seqs [.grp 1 (.number), .lit [' ', 's', 'e', 'k', 'o', 'n', 'd', 'e', ' ', 'l', 'y', 'n']], [.ref 1, .lit [' ', 's', 'e', 'c', 'o', 'n', 'd', ' ', 'a', 'g', 'o']]),
    (.seqs [.lit ['o', 'e', 'r', ' '], .grp 1 (.number), .lit [' ', 'm', 'i', 'n', 'u', 't', 'e', 'n']], [.lit ['i', 'n', ' '], .ref 1, .lit [' ', 'm', 'i', 'n', 'u', 't', 'e']]),
    (.seqs [.lit ['o', 'e', 'r', ' '], .grp 1 (.number), .lit [' ', 'm', 'o', 'a', 'n', 'n', 'e', 'n']], [.lit ['i', 'n', ' '], .ref 1, .lit [' ', 'm', 'o', 'n', 't', 'h']]),
    (.seqs [.lit ['o', 'e', 'r', ' '], .grp 1 (.number), .lit [' ', 's', 'e', 'k', 'o', 'n', 'd', 'e']], [.lit ['i', 'n', ' '], .ref 1, .lit [' ', 's', 'e', 'c', 'o', 'n', 'd']]),
    (.seqs [.grp 1 (.number), .lit [' ', 'm', 'o', 'a', 'n', 'n', 'e', ' ', 'l', 'y', 'n']], [.ref 1, .lit [' ', 'm', 'o', 'n', 't', 'h', ' ', 'a', 'g', 'o']]),
    (.seqs [.lit ['o', 'e', 'r', ' '], .grp 1 (.number), .lit [' ', 'm', 'o', 'a', 'n', 'n', 'e']], [.lit ['i', 'n', ' '], .ref 1, .lit [' ', 'm', 'o', 'n', 't', 'h']]),
    (.seqs [.grp 1 (.number), .lit [' ', 'd', 'e', 'i', 'e', 'n', ' ', 'l', 'y', 'n']], [.ref 1, .lit [' ', 'd', 'a', 'y', ' ', 'a', 'g', 'o']]),
    (.seqs [.grp 1 (.number), .lit [' ', 'm', 'i', 'n', 'u', 't', ' ', 'l', 'y', 'n']], [.ref 1, .lit [' ', 'm', 'i', 'n', 'u', 't', 'e', ' ', 'a', 'g', 'o']]),
    (.seqs [.grp 1 (.number), .lit [' ', 'w', 'i', 'k', 'e', 'n', ' ', 'l', 'y', 'n']], [.ref 1, .lit [' ', 'w', 'e', 'e', 'k', ' ', 'a', 'g', 'o']]),
    (.seqs [.lit ['o', 'e', 'r', ' '], .grp 1 (.number), .lit [' ', 'd', 'e', 'i', 'e', 'n']], [.lit ['i', 'n', ' '], .ref 1, .lit [' ', 'd', 'a', 'y']]),
    (.seqs [.lit ['o', 'e', 'r', ' '], .grp 1 (.number), .lit [' ', 'm', 'i', 'n', 'u', 't']], [.lit ['i', 'n', ' '], .ref 1, .lit [' ', 'm', 'i', 'n', 'u', 't', 'e']]),
    (.seqs [.lit ['o', 'e', 'r', ' '], .grp 1 (.number), .lit [' ', 'w', 'i', 'k', 'e', 'n']], [.lit ['i', 'n', ' '], .ref 1, .lit [' ', 'w', 'e', 'e', 'k']]),
    (.seqs [.grp 1 (.number), .lit [' ', 'j', 'i', 'e', 'r', ' ', 'l', 'y', 'n']], [.ref 1, .lit [' ', 'y', 'e', 'a', 'r', ' ', 'a', 'g', 'o']]),
    (.seqs [.grp 1 (.number), .lit [' ', 'o', 'e', 'r', 'e', ' ', 'l', 'y', 'n']], [.ref 1, .lit [' ', 'h', 'o', 'u', 'r', ' ', 'a', 'g', 'o']]),
    (.seqs [.grp 1 (.number), .lit [' ', 'w', 'i', 'k', 'e', ' ', 'l', 'y', 'n']], [.ref 1, .lit [' ', 'w', 'e', 'e', 'k', ' ', 'a', 'g', 'o']]),
    (.seqs [.lit ['o', 'e', 'r', ' '], .grp 1 (.number), .lit [' ', 'j', 'i', 'e', 'r']], [.lit ['i', 'n', ' '], .ref 1, .lit [' ', 'y', 'e', 'a', 'r']]),
    (.seqs [.lit ['o', 'e', 'r', ' '], .grp 1 (.number), .lit [' ', 'o', 'e', 'r', 'e']], [.lit ['i', 'n', ' '], .ref 1, .lit [' ', 'h', 'o', 'u', 'r']]),
    (.seqs [.lit ['o', 'e', 'r', ' '], .grp 1 (.number), .lit [' ', 'w', 'i', 'k', 'e']], [.lit ['i', 'n', ' '], .ref 1, .lit [' ', 'w', 'e', 'e', 'k']]),
    (.seqs [.grp 1 (.number), .lit [' ', 'd', 'e', 'i', ' ', 'l', 'y', 'n']], [.ref 1, .lit [' ', 'd', 'a', 'y', ' ', 'a', 'g', 'o']]),
    (.seqs [.lit ['o', 'e', 'r', ' '], .grp 1 (.number), .lit [' ', 'd', 'e', 'i']], [.lit ['i', 'n', ' '], .ref 1, .lit [' ', 'd', 'a', 'y']])],
  rxCombined := some (.seqs [.grp 1 (.alts [.bos, .cls true [.letter, .mark, .digit], .lit ['_']]), .grp 2 (.alts [.seqs [.number, .lit [' ', 's', 'e', 'k', 'o', 'n', 'd', 'e', 'n', ' ', 'l', 'y', 'n']], .seqs [.lit ['o', 'e', 'r', ' '], .number, .lit [' ', 's', 'e', 'k', 'o', 'n', 'd', 'e', 'n']], .seqs [.number, .lit [' ', 'm', 'i', 'n', 'u', 't', 'e', 'n', ' ', 'l', 'y', 'n']], .seqs [.number, .lit [' ', 'm', 'o', 'a', 'n', 'n', 'e', 'n', ' ', 'l', 'y', 'n']], .seqs [.number, .lit [' ', 's', 'e', 'k', 'o', 'n', 'd', 'e', ' ', 'l', 'y', 'n']], .seqs [.lit ['o', 'e', 'r', ' '], .number, .lit [' ', 'm', 'i', 'n', 'u', 't', 'e', 'n']], .seqs [.lit ['o', 'e', 'r', ' '], .number, .lit [' ', 'm', 'o', 'a', 'n', 'n', 'e', 'n']], .seqs [.lit ['o', 'e', 'r', ' '], .number, .lit [' ', 's', 'e', 'k', 'o', 'n', 'd', 'e']], .seqs [.number, .lit [' ', 'm', 'o', 'a', 'n', 'n', 'e', ' ', 'l', 'y', 'n']], .seqs [.lit ['o', 'e', 'r', ' '], .number, .lit [' ', 'm', 'o', 'a', 'n', 'n', 'e']], .seqs [.number, .lit [' ', 'd', 'e', 'i', 'e', 'n', ' ', 'l', 'y', 'n']], .seqs [.number, .lit [' ', 'm', 'i', 'n', 'u', 't', ' ', 'l', 'y', 'n']], .seqs [.number, .lit [' ', 'w', 'i', 'k', 'e', 'n', ' ', 'l', 'y', 'n']], .seqs [.lit ['o', 'e', 'r', ' '], .number, .lit [' ', 'd', 'e', 'i', 'e', 'n']], .seqs [.lit ['o', 'e', 'r', ' '], .number, .lit [' ', 'm', 'i', 'n', 'u', 't']], .seqs [.lit ['o', 'e', 'r', ' '], .number, .lit [' ', 'w', 'i', 'k', 'e', 'n']], .seqs [.number, .lit [' ', 'j', 'i', 'e', 'r', ' ', 'l', 'y', 'n']], .seqs [.number, .lit [' ', 'o', 'e', 'r', 'e', ' ', 'l', 'y', 'n']], .seqs [.number, .lit [' ', 'w', 'i', 'k', 'e', ' ', 'l', 'y', 'n']], .seqs [.lit ['o', 'e', 'r', ' '], .number, .lit [' ', 'j', 'i', 'e', 'r']], .seqs [.lit ['o', 'e', 'r', ' '], .number, .lit [' ', 'o', 'e', 'r', 'e']], .seqs [.lit ['o', 'e', 'r', ' '], .number, .lit [' ', 'w', 'i', 'k', 'e']], .seqs [.number, .lit [' ', 'd', 'e', 'i', ' ', 'l', 'y', 'n']], .seqs [.lit ['o', 'e', 'r', ' '], .number, .lit [' ', 'd', 'e', 'i']]]), .grp 3 (.alts [.eos, .cls true [.letter, .mark, .digit], .lit ['_']])], 3),
  rxExact := some (.seqs [.bos, .grp 1 (.alts [.seqs [.number, .lit [' ', 's', 'e', 'k', 'o', 'n', 'd', 'e', 'n', ' ', 'l', 'y', 'n']], .seqs [.lit ['o', 'e', 'r', ' '], .number, .lit [' ', 's', 'e', 'k', 'o', 'n', 'd', 'e', 'n']], .seqs [.number, .lit [' ', 'm', 'i', 'n', 'u', 't', 'e', 'n', ' ', 'l', 'y', 'n']], .seqs [.number, .lit [' ', 'm', 'o', 'a', 'n', 'n', 'e', 'n', ' ', 'l', 'y', 'n']], .seqs [.number, .lit [' ', 's', 'e', 'k', 'o', 'n', 'd', 'e', ' ', 'l', 'y', 'n']], .seqs [.lit ['o', 'e', 'r', ' '], .number, .lit [' ', 'm', 'i', 'n', 'u', 't', 'e', 'n']], .seqs [.lit ['o', 'e', 'r', ' '], .number, .lit [' ', 'm', 'o', 'a', 'n', 'n', 'e', 'n']], .seqs [.lit ['o', 'e', 'r', ' '], .number, .lit [' ', 's', 'e', 'k', 'o', 'n', 'd', 'e']], .seqs [.number, .lit [' ', 'm', 'o', 'a', 'n', 'n', 'e', ' ', 'l', 'y', 'n']], .seqs [.lit ['o', 'e', 'r', ' '], .number, .lit [' ', 'm', 'o', 'a', 'n', 'n', 'e']], .seqs [.number, .lit [' ', 'd', 'e', 'i', 'e', 'n', ' ', 'l', 'y', 'n']], .seqs [.number, .lit [' ', 'm', 'i', 'n', 'u', 't', ' ', 'l', 'y', 'n']], .seqs [.number, .lit [' ', 'w', 'i', 'k', 'e', 'n', ' ', 'l', 'y', 'n']], .seqs [.lit ['o', 'e', 'r', ' '], .number, .lit [' ', 'd', 'e', 'i', 'e', 'n']], .seqs [.lit ['o', 'e', 'r', ' '], .number, .lit [' ', 'm', 'i', 'n', 'u', 't']], .seqs [.lit ['o', 'e', 'r', ' '], .number, .lit [' ', 'w', 'i', 'k', 'e', 'n']], .seqs [.number, .lit [' ', 'j', 'i', 'e', 'r', ' ', 'l', 'y', 'n']], .seqs [.number, .lit [' ', 'o', 'e', 'r', 'e', ' ', 'l', 'y', 'n']], .seqs [.number, .lit [' ', 'w', 'i', 'k', 'e', ' ', 'l', 'y', 'n']], .seqs [.lit ['o', 'e', 'r', ' '], .number, .lit [' ', 'j', 'i', 'e', 'r']], .seqs [.lit ['o', 'e', 'r', ' '], .number, .lit [' ', 'o', 'e', 'r', 'e']], .seqs [.lit ['o', 'e', 'r', ' '], .number, .lit [' ', 'w', 'i', 'k', 'e']], .seqs [.number, .lit [' ', 'd', 'e', 'i', ' ', 'l', 'y', 'n']], .seqs [.lit ['o', 'e', 'r', ' '], .number, .lit [' ', 'd', 'e', 'i']]]), .eos]),
  knownWords :=
   [['f', 'o', 'l', 'g', 'j', 'e', 'n', 'd', 'e', ' ', 'm', 'o', 'a', 'n', 'n', 'e'], ['f', 'o', 'a', 'r', 'i', 'g', 'e', ' ', 'm', 'o', 'a', 'n', 'n', 'e'], ['f', 'o', 'l', 'g', 'j', 'e', 'n', 'd', 'e', ' ', 'w', 'i', 'k', 'e'], ['f', 'o', 'l', 'g', 'j', 'e', 'n', 'd', ' ', 'j', 'i', 'e', 'r'], ['d', 'i', 'z', 'z', 'e', ' ', 'm', 'o', 'a', 'n', 'n', 'e'], ['f', 'o', 'a', 'r', 'i', 'c', 'h', ' ', 'j', 'i', 'e', 'r'], ['f', 'o', 'a', 'r', 'i', 'g', 'e', ' ', 'w', 'i', 'k', 'e'], ['t', 'h', 'i', 's', ' ', 'm', 'i', 'n', 'u', 't', 'e'], ['d', 'i', 'z', 'z', 'e', ' ', 'w', 'i', 'k', 'e'], ['f', 'e', 'b', 'r', 'e', 'w', 'a', 'r', 'i', 's'], ['j', 'a', 'n', 'n', 'e', 'w', 'a', 'r', 'i', 's'], ['t', 'o', 'n', 'g', 'e', 'r', 's', 'd', 'e', 'i'], ['s', 'e', 'p', 't', 'i', 'm', 'b', 'e', 'r'], ['t', 'h', 'i', 's', ' ', 'h', 'o', 'u', 'r'], ['a', 'u', 'g', 'u', 's', 't', 'u', 's'], ['d', 'e', 's', 'i', 'm', 'b', 'e', 'r'], ['d', 'i', 't', ' ', 'j', 'i', 'e', 'r'], ['g', 'i', 's', 't', 'e', 'r', 'e', 'n'], ['n', 'o', 'v', 'i', 'm', 'b', 'e', 'r'], ['w', 'o', 'a', 'n', 's', 'd', 'e', 'i'], ['m', 'o', 'a', 'n', 'd', 'e', 'i'], ['o', 'k', 't', 'o', 'b', 'e', 'r'], ['s', 'e', 'k', 'o', 'n', 'd', 'e'], ['t', 'i', 'i', 's', 'd', 'e', 'i'], ['v', 'a', 'n', 'd', 'a', 'a', 'g'], ['m', 'o', 'a', 'n', 'n', 'e'], ['m', 'o', 'r', 'g', 'e', 'n'], ['a', 'p', 'r', 'i', 'l'], ['f', 'r', 'e', 'e', 'd'], ['m', 'a', 'a', 'i', 'e'], ['m', 'a', 'a', 'r', 't'], ['m', 'i', 'n', 'u', 't'], ['s', 'n', 'e', 'i', 'n'], ['s', 'n', 'e', 'o', 'n'], ['j', 'i', 'e', 'r'], ['j', 'u', 'l', 'y'], ['j', 'u', 'n', 'y'], ['o', 'e', 'r', 'e'], ['w', 'i', 'k', 'e'], ['a', 'p', 'r'], ['a', 'u', 'g'], ['d', 'e', 'i'], ['d', 'e', 's'], ['f', 'e', 'b'], ['g', 'm', 't'], ['j', 'a', 'n'], ['j', 'u', 'l'], ['j', 'u', 'n'], ['m', 'a', 'i'], ['m', 'r', 't'], ['n', 'o', 'v'], ['o', 'k', 't'], ['s', 'e', 'p'], ['u', 't', 'c'], ['a', 'm'], ['f', 'r'], ['m', 'o'], ['n', 'u'], ['p', 'm'], ['s', 'i'], ['s', 'o'], ['t', 'i'], ['t', 'o'], ['w', 'o'], [' '], ['\''], ['+'], [','], ['-'], ['.'], ['/'], [':'], [';'], ['@'], ['['], [']'], ['z'], ['|']] }

/-- internal/data/ga.go: `ga_Locale`. -/
def gaLang : LangData := { gaDict with
  relativeRegexes :=
   [(.seqs [.lit ['i', ' ', 'g', 'c', 'e', 'a', 'n', 'n', ' '], .grp 1 (.number), .lit [' ', 'u', 'a', 'i', 'r', ' ', 'a', 'n', ' ', 'c', 'h', 'l', 'o', 'i', 'g']], [.lit ['i', 'n', ' '], .ref 1, .lit [' ', 'h', 'o', 'u', 'r']]),
    (.seqs [.grp 1 (.number), .lit [' ', 'u', 'a', 'i', 'r', ' ', 'a', 'n', ' ', 'c', 'h', 'l', 'o', 'i', 'g', ' ', 'o', ' ', 's', 'h', 'i', 'n']], [.ref 1, .lit [' ', 'h', 'o', 'u', 'r', ' ', 'a', 'g', 'o']]),
    (.seqs [.lit ['i', ' ', 'g', 'c', 'e', 'a', 'n', 'n', ' '], .grp 1 (.number), .lit [' ', 's', 'e', 'a', 'c', 'h', 't', 'a', 'i', 'n']], [.lit ['i', 'n', ' '], .ref 1, .lit [' ', 'w', 'e', 'e', 'k']]),
    (.seqs [.grp 1 (.number), .lit [' ', 's', 'e', 'a', 'c', 'h', 't', 'a', 'i', 'n', ' ', 'o', ' ', 's', 'h', 'i', 'n']], [.ref 1, .lit [' ', 'w', 'e', 'e', 'k', ' ', 'a', 'g', 'o']]),
    (.seqs [.lit ['i', ' ', 'g', 'c', 'e', 'a', 'n', 'n', ' '], .grp 1 (.number), .lit [' ', 'b', 'h', 'l', 'i', 'a', 'i', 'n']], [.lit ['i', 'n', ' '], .ref 1, .lit [' ', 'y', 'e', 'a', 'r']]),
    (.seqs [.lit ['i', ' ', 'g', 'c', 'e', 'a', 'n', 'n', ' '], .grp 1 (.number), .lit [' ', 'n', 'o', 'i', 'm', 'e', 'a', 'd']], [.lit ['i', 'n', ' '], .ref 1, .lit [' ', 'm', 'i', 'n', 'u', 't', 'e']]),
    (.seqs [.lit ['i', ' ', 'g', 'c', 'e', 'a', 'n', 'n', ' '], .grp 1 (.number), .lit [' ', 's', 'o', 'i', 'c', 'i', 'n', 'd']], [.lit ['i', 'n', ' '], .ref 1, .lit [' ', 's', 'e', 'c', 'o', 'n', 'd']]),
    (.seqs [.lit ['i', ' ', 'g', 'c', 'e', 'a', 'n', 'n', ' '], .grp 1 (.number), .lit [' ', 'b', 'l', 'i', 'a', 'i', 'n']], [.lit ['i', 'n', ' '], .ref 1, .lit [' ', 'y', 'e', 'a', 'r']]),
    (.seqs [.grp 1 (.number), .lit [' ', 'b', 'h', 'l', 'i', 'a', 'i', 'n', ' ', 'o', ' ', 's', 'h', 'i', 'n']], [.ref 1, .lit [' ', 'y', 'e', 'a', 'r', ' ', 'a', 'g', 'o']]),
    (.seqs [.grp 1 (.number), .lit [' ', 'n', 'o', 'i', 'm', 'e', 'a', 'd', ' ', 'o', ' ', 's', 'h', 'i', 'n']], [.ref 1, .lit [' ', 'm', 'i', 'n', 'u', 't', 'e', ' ', 'a', 'g', 'o']]),
    (.seqs [.grp 1 (.number), .lit [' ', 's', 'o', 'i', 'c', 'i', 'n', 'd', ' ', 'o', ' ', 's', 'h', 'i', 'n']], [.ref 1, .lit [' ', 's', 'e', 'c', 'o', 'n', 'd', ' ', 'a', 'g', 'o']]),
    (.seqs [.grp 1 (.number), .lit [' ', 'b', 'l', 'i', 'a', 'i', 'n', ' ', 'o', ' ', 's', 'h', 'i', 'n']], [.ref 1, .lit [' ', 'y', 'e', 'a', 'r', ' ', 'a', 'g', 'o']]),
    (.seqs [.lit ['i', ' ', 'g', 'c', 'e', 'a', 'n', 'n', ' '], .grp 1 (.number), .lit [' ', 'n', 'o', 'i', 'm']], [.lit ['i', 'n', ' '], .ref 1, .lit [' ', 'm', 'i', 'n', 'u', 't', 'e']]),
    (.seqs [.lit ['i', ' ', 'g', 'c', 'e', 'a', 'n', 'n', ' '], .grp 1 (.number), .lit [' ', 's', 'c', 'h', 't']], [.lit ['i', 'n', ' '], .ref 1, .lit [' ', 'w', 'e', 'e', 'k']]),
    (.seqs [.lit ['i', ' ', 'g', 'c', 'e', 'a', 'n', 'n', ' '], .grp 1 (.number), .lit [' ', 's', 'o', 'i', 'c']], [.lit ['i', 'n', ' '], .ref 1, .lit [' ', 's', 'e', 'c', 'o', 'n', 'd']]),
    (.seqs [.lit ['i', ' ', 'g', 'c', 'e', 'a', 'n', 'n', ' '], .grp 1 (.number), .lit [' ', 'u', 'a', 'i', 'r']], [.lit ['i', 'n', ' '], .ref 1, .lit [' ', 'h', 'o', 'u', 'r']]),
    (.seqs [.lit ['i', ' ', 'g', 'c', 'e', 'a', 'n', 'n', ' '], .grp 1 (.number), .lit [' ', 'm', 'h', 'i']], [.lit ['i', 'n', ' '], .ref 1, .lit [' ', 'm', 'o', 'n', 't', 'h']]),
    (.seqs [.grp 1 (.number), .lit [' ', 'n', 'o', 'i', 'm', ' ', 'o', ' ', 's', 'h', 'i', 'n']], [.ref 1, .lit [' ', 'm', 'i', 'n', 'u', 't', 'e', ' ', 'a', 'g', 'o']]),
    (.seqs [.grp 1 (.number), .lit [' ', 's', 'c', 'h', 't', ' ', 'o', ' ', 's', 'h', 'i', 'n']], [.ref 1, .lit [' ', 'w', 'e', 'e', 'k', ' ', 'a', 'g', 'o']]),
    (.seqs [.grp 1 (.number), .lit [' ', 's', 'o', 'i', 'c', ' ', 'o', ' ', 's', 'h', 'i', 'n']], [.ref 1, .lit [' ', 's', 'e', 'c', 'o', 'n', 'd', ' ', 'a', 'g', 'o']]),
    (.seqs [.grp 1 (.number), .lit [' ', 'u', 'a', 'i', 'r', ' ', 'o', ' ', 's', 'h', 'i', 'n']], [.ref 1, .lit [' ', 'h', 'o', 'u', 'r', ' ', 'a', 'g', 'o']]),
    (.seqs [.lit ['i', ' ', 'g', 'c', 'e', 'a', 'n', 'n', ' '], .grp 1 (.number), .lit [' ', 'b', 'l']], [.lit ['i', 'n', ' '], .ref 1, .lit [' ', 'y', 'e', 'a', 'r']]),
    (.seqs [.lit ['i', ' ', 'g', 'c', 'e', 'a', 'n', 'n', ' '], .grp 1 (.number), .lit [' ', 'l', 'a']], [.lit ['i', 'n', ' '], .ref 1, .lit [' ', 'd', 'a', 'y']]),
    (.seqs [.lit ['i', ' ', 'g', 'c', 'e', 'a', 'n', 'n', ' '], .grp 1 (.number), .lit [' ', 'm', 'i']], [.lit ['i', 'n', ' '], .ref 1, .lit [' ', 'm', 'o', 'n', 't', 'h']]),
    (.seqs [.grp 1 (.number), .lit [' ', 'b', 'h', 'l', ' ', 'o', ' ', 's', 'h', 'i', 'n']], [.ref 1, .lit [' ', 'y', 'e', 'a', 'r', ' ', 'a', 'g', 'o']]),
    (.seqs [.grp 1 (.number), .lit [' ', 'm', 'h', 'i', ' ', 'o', ' ', 's', 'h', 'i', 'n']], [.ref 1, .lit [' ', 'm', 'o', 'n', 't', 'h', ' ', 'a', 'g', 'o']]),
    (.seqs [.grp 1 (.number), .lit [' ', 'b', 'l', ' ', 'o', ' ', 's', 'h', 'i', 'n']], [.ref 1, .lit [' ', 'y', 'e', 'a', 'r', ' ', 'a', 'g', 'o']]),
    (.seqs [.grp 1 (.number), .lit [' ', 'l', 'a', ' ', 'o', ' ', 's', 'h', 'i', 'n']], [.ref 1, .lit [' ', 'd', 'a', 'y', ' ', 'a', 'g', 'o']]),
    (.seqs [.grp 1 (.number), .lit [' ', 'm', 'i', ' ', 'o', ' ', 's', 'h', 'i', 'n']], [.ref 1, .lit [' ', 'm', 'o', 'n', 't', 'h', ' ', 'a', 'g', 'o']])],
  rxCombined := some (.seqs [.grp 1 (.alts [.bos, .cls true [.letter, .mark, .digit], .lit ['_']]), .grp 2 (.alts [.seqs [.lit ['i', ' ', 'g', 'c', 'e', 'a', 'n', 'n', ' '], .number, .lit [' ', 'u', 'a', 'i', 'r', ' ', 'a', 'n', ' ', 'c', 'h', 'l', 'o', 'i', 'g']], .seqs [.number, .lit [' ', 'u', 'a', 'i', 'r', ' ', 'a', 'n', ' ', 'c', 'h', 'l', 'o', 'i', 'g', ' ', 'o', ' ', 's', 'h', 'i', 'n']], .seqs [.lit ['i', ' ', 'g', 'c', 'e', 'a', 'n', 'n', ' '], .number, .lit [' ', 's', 'e', 'a', 'c', 'h', 't', 'a', 'i', 'n']], .seqs [.number, .lit [' ', 's', 'e', 'a', 'c', 'h', 't', 'a', 'i', 'n', ' ', 'o', ' ', 's', 'h', 'i', 'n']], .seqs [.lit ['i', ' ', 'g', 'c', 'e', 'a', 'n', 'n', ' '], .number, .lit [' ', 'b', 'h', 'l', 'i', 'a', 'i', 'n']], .seqs [.lit ['i', ' ', 'g', 'c', 'e', 'a', 'n', 'n', ' '], .number, .lit [' ', 'n', 'o', 'i', 'm', 'e', 'a', 'd']], .seqs [.lit ['i', ' ', 'g', 'c', 'e', 'a', 'n', 'n', ' '], .number, .lit [' ', 's', 'o', 'i', 'c', 'i', 'n', 'd']], .seqs [.lit ['i', ' ', 'g', 'c', 'e', 'a', 'n', 'n', ' '], .number, .lit [' ', 'b', 'l', 'i', 'a', 'i', 'n']], .seqs [.number, .lit [' ', 'b', 'h', 'l', 'i', 'a', 'i', 'n', ' ', 'o', ' ', 's', 'h', 'i', 'n']], .seqs [.number, .lit [' ', 'n', 'o', 'i', 'm', 'e', 'a', 'd', ' ', 'o', ' ', 's', 'h', 'i', 'n']], .seqs [.number, .lit [' ', 's', 'o', 'i', 'c', 'i', 'n', 'd', ' ', 'o', ' ', 's', 'h', 'i', 'n']], .seqs [.number, .lit [' ', 'b', 'l', 'i', 'a', 'i', 'n', ' ', 'o', ' ', 's', 'h', 'i', 'n']], .seqs [.lit ['i', ' ', 'g', 'c', 'e', 'a', 'n', 'n', ' '], .number, .lit [' ', 'n', 'o', 'i', 'm']], .seqs [.lit ['i', ' ', 'g', 'c', 'e', 'a', 'n', 'n', ' '], .number, .lit [' ', 's', 'c', 'h', 't']], .seqs [.lit ['i', ' ', 'g', 'c', 'e', 'a', 'n', 'n', ' '], .number, .lit [' ', 's', 'o', 'i', 'c']], .seqs [.lit ['i', ' ', 'g', 'c', 'e', 'a', 'n', 'n', ' '], .number, .lit [' ', 'u', 'a', 'i', 'r']], .seqs [.lit ['i', ' ', 'g', 'c', 'e', 'a', 'n', 'n', ' '], .number, .lit [' ', 'm', 'h', 'i']], .seqs [.number, .lit [' ', 'n', 'o', 'i', 'm', ' ', 'o', ' ', 's', 'h', 'i', 'n']], .seqs [.number, .lit [' ', 's', 'c', 'h', 't', ' ', 'o', ' ', 's', 'h', 'i', 'n']], .seqs [.number, .lit [' ', 's', 'o', 'i', 'c', ' ', 'o', ' ', 's', 'h', 'i', 'n']], .seqs [.number, .lit [' ', 'u', 'a', 'i', 'r', ' ', 'o', ' ', 's', 'h', 'i', 'n']], .seqs [.lit ['i', ' ', 'g', 'c', 'e', 'a', 'n', 'n', ' '], .number, .lit [' ', 'b', 'l']], .seqs [.lit ['i', ' ', 'g', 'c', 'e', 'a', 'n', 'n', ' '], .number, .lit [' ', 'l', 'a']], .seqs [.lit ['i', ' ', 'g', 'c', 'e', 'a', 'n', 'n', ' '], .number, .lit [' ', 'm', 'i']], .seqs [.number, .lit [' ', 'b', 'h', 'l', ' ', 'o', ' ', 's', 'h', 'i', 'n']], .seqs [.number, .lit [' ', 'm', 'h', 'i', ' ', 'o', ' ', 's', 'h', 'i', 'n']], .seqs [.number, .lit [' ', 'b', 'l', ' ', 'o', ' ', 's', 'h', 'i', 'n']], .seqs [.number, .lit [' ', 'l', 'a', ' ', 'o', ' ', 's', 'h', 'i', 'n']], .seqs [.number, .lit [' ', 'm', 'i', ' ', 'o', ' ', 's', 'h', 'i', 'n']]]), .grp 3 (.alts [.eos, .cls true [.letter, .mark, .digit], .lit ['_']])], 3),
  rxExact := some (.seqs [.bos, .grp 1 (.alts [.seqs [.lit ['i', ' ', 'g', 'c', 'e', 'a', 'n', 'n', ' '], .number, .lit [' ', 'u', 'a', 'i', 'r', ' ', 'a', 'n', ' ', 'c', 'h', 'l', 'o', 'i', 'g']], .seqs [.number, .lit [' ', 'u', 'a', 'i', 'r', ' ', 'a', 'n', ' ', 'c', 'h', 'l', 'o', 'i', 'g', ' ', 'o', ' ', 's', 'h', 'i', 'n']], .seqs [.lit ['i', ' ', 'g', 'c', 'e', 'a', 'n', 'n', ' '], .number, .lit [' ', 's', 'e', 'a', 'c', 'h', 't', 'a', 'i', 'n']], .seqs [.number, .lit [' ', 's', 'e', 'a', 'c', 'h', 't', 'a', 'i', 'n', ' ', 'o', ' ', 's', 'h', 'i', 'n']], .seqs [.lit ['i', ' ', 'g', 'c', 'e', 'a', 'n', 'n', ' '], .number, .lit [' ', 'b', 'h', 'l', 'i', 'a', 'i', 'n']], .seqs [.lit ['i', ' ', 'g', 'c', 'e', 'a', 'n', 'n', ' '], .number, .lit [' ', 'n', 'o', 'i', 'm', 'e', 'a', 'd']], .seqs [.lit ['i', ' ', 'g', 'c', 'e', 'a', 'n', 'n', ' '], .number, .lit [' ', 's', 'o', 'i', 'c', 'i', 'n', 'd']], .seqs [.lit ['i', ' ', 'g', 'c', 'e', 'a', 'n', 'n', ' '], .number, .lit [' ', 'b', 'l', 'i', 'a', 'i', 'n']], .seqs [.number, .lit [' ', 'b', 'h', 'l', 'i', 'a', 'i', 'n', ' ', 'o', ' ', 's', 'h', 'i', 'n']], .seqs [.number, .lit [' ', 'n', 'o', 'i', 'm', 'e', 'a', 'd', ' ', 'o', ' ', 's', 'h', 'i', 'n']], .seqs [.number, .lit [' ', 's', 'o', 'i', 'c', 'i', 'n', 'd', ' ', 'o', ' ', 's', 'h', 'i', 'n']], .seqs [.number, .lit [' ', 'b', 'l', 'i', 'a', 'i', 'n', ' ', 'o', ' ', 's', 'h', 'i', 'n']], .seqs [.lit ['i', ' ', 'g', 'c', 'e', 'a', 'n', 'n', ' '], .number, .lit [' ', 'n', 'o', 'i', 'm']], .seqs [.lit ['i', ' ', 'g', 'c', 'e', 'a', 'n', 'n', ' '], .number, .lit [' ', 's', 'c', 'h', 't']], .seqs [.lit ['i', ' ', 'g', 'c', 'e', 'a', 'n', 'n', ' '], .number, .lit [' ', 's', 'o', 'i', 'c']], .seqs [.lit ['i', ' ', 'g', 'c', 'e', 'a', 'n', 'n', ' '], .number, .lit [' ', 'u', 'a', 'i', 'r']], .seqs [.lit ['i', ' ', 'g', 'c', 'e', 'a', 'n', 'n', ' '], .number, .lit [' ', 'm', 'h', 'i']], .seqs [.number, .lit [' ', 'n', 'o', 'i', 'm', ' ', 'o', ' ', 's', 'h', 'i', 'n']], .seqs [.number, .lit [' ', 's', 'c', 'h', 't', ' ', 'o', ' ', 's', 'h', 'i', 'n']], .seqs [.number, .lit [' ', 's', 'o', 'i', 'c', ' ', 'o', ' ', 's', 'h', 'i', 'n']], .seqs [.number, .lit [' ', 'u', 'a', 'i', 'r', ' ', 'o', ' ', 's', 'h', 'i', 'n']], .seqs [.lit ['i', ' ', 'g', 'c', 'e', 'a', 'n', 'n', ' '], .number, .lit [' ', 'b', 'l']], .seqs [.lit ['i', ' ', 'g', 'c', 'e', 'a', 'n', 'n', ' '], .number, .lit [' ', 'l', 'a']], .seqs [.lit ['i', ' ', 'g', 'c', 'e', 'a', 'n', 'n', ' '], .number, .lit [' ', 'm', 'i']], .seqs [.number, .lit [' ', 'b', 'h', 'l', ' ', 'o', ' ', 's', 'h', 'i', 'n']], .seqs [.number, .lit [' ', 'm', 'h', 'i', ' ', 'o', ' ', 's', 'h', 'i', 'n']], .seqs [.number, .lit [' ', 'b', 'l', ' ', 'o', ' ', 's', 'h', 'i', 'n']], .seqs [.number, .lit [' ', 'l', 'a', ' ', 'o', ' ', 's', 'h', 'i', 'n']], .seqs [.number, .lit [' ', 'm', 'i', ' ', 'o', ' ', 's', 'h', 'i', 'n']]]), .eos]),
  knownWords :=
   [['a', 'n', ' ', 't', 's', 'e', 'a', 'c', 'h', 't', 'a', 'i', 'n', ' ', 's', 'e', 'o', ' ', 'c', 'h', 'u', 'g', 'a', 'i', 'n', 'n'], ['a', 'n', ' ', 'b', 'h', 'l', 'i', 'a', 'i', 'n', ' ', 's', 'e', 'o', ' ', 'c', 'h', 'u', 'g', 'a', 'i', 'n', 'n'], ['a', 'n', ' ', 't', 's', 'e', 'a', 'c', 'h', 't', 'a', 'i', 'n', ' ', 's', 'e', 'o', ' ', 'c', 'a', 'i', 't', 'e'], ['a', 'n', ' ', 't', 's', 'c', 'h', 't', ' ', 's', 'e', 'o', ' ', 'c', 'h', 'u', 'g', 'a', 'i', 'n', 'n'], ['a', 'n', ' ', 'b', 'h', 'l', ' ', 's', 'e', 'o', ' ', 'c', 'h', 'u', 'g', 'a', 'i', 'n', 'n'], ['a', 'n', ' ', 'm', 'h', 'i', ' ', 's', 'e', 'o', ' ', 'c', 'h', 'u', 'g', 'a', 'i', 'n', 'n'], ['a', 'n', ' ', 't', 's', 'c', 'h', 't', ' ', 's', 'e', 'o', ' ', 'c', 'a', 'i', 't', 'e'], ['a', 'n', ' ', 't', 's', 'e', 'a', 'c', 'h', 't', 'a', 'i', 'n', ' ', 's', 'e', 'o'], ['a', 'n', ' ', 'm', 'h', 'i', ' ', 's', 'e', 'o', ' ', 'c', 'a', 'i', 't', 'e'], ['d', 'e', 'i', 'r', 'e', 'a', 'd', 'h', ' ', 'f', 'o', 'm', 'h', 'a', 'i', 'r'], ['a', 'n', ' ', 'b', 'h', 'l', 'i', 'a', 'i', 'n', ' ', 's', 'e', 'o'], ['a', 'n', ' ', 'n', 'o', 'i', 'm', 'e', 'a', 'd', ' ', 's', 'e', 'o'], ['a', 'n', ' ', 't', 's', 'c', 'h', 't', ' ', 's', 'e', 'o'], ['d', 'e', ' ', 'd', 'o', 'm', 'h', 'n', 'a', 'i', 'g', 'h'], ['m', 'e', 'a', 'n', ' ', 'f', 'o', 'm', 'h', 'a', 'i', 'r'], ['a', 'n', ' ', 'u', 'a', 'i', 'r', ' ', 's', 'e', 'o'], ['d', 'e', ' ', 'c', 'e', 'a', 'd', 'a', 'o', 'i', 'n'], ['d', 'e', ' ', 's', 'a', 't', 'h', 'a', 'i', 'r', 'n'], ['a', 'n', ' ', 'b', 'h', 'l', ' ', 's', 'e', 'o'], ['a', 'n', ' ', 'm', 'h', 'i', ' ', 's', 'e', 'o'], ['b', 'e', 'a', 'l', 't', 'a', 'i', 'n', 'e'], ['d', 'e', ' ', 'h', 'a', 'o', 'i', 'n', 'e'], ['d', 'e', 'a', 'r', 'd', 'a', 'o', 'i', 'n'], ['m', 'e', 'i', 't', 'h', 'e', 'a', 'm', 'h'], ['s', 'e', 'a', 'c', 'h', 't', 'a', 'i', 'n'], ['a', 'n', 'u', 'r', 'a', 'i', 'd', 'h'], ['d', 'e', ' ', 'l', 'u', 'a', 'i', 'n'], ['d', 'e', ' ', 'm', 'a', 'i', 'r', 't'], ['a', 'i', 'b', 'r', 'e', 'a', 'n'], ['a', 'm', 'a', 'r', 'a', 'c', 'h'], ['f', 'e', 'a', 'b', 'h', 'r', 'a'], ['n', 'o', 'i', 'm', 'e', 'a', 'd'], ['n', 'o', 'l', 'l', 'a', 'i', 'g'], ['s', 'a', 'm', 'h', 'a', 'i', 'n'], ['s', 'o', 'i', 'c', 'i', 'n', 'd'], ['b', 'l', 'i', 'a', 'i', 'n'], ['e', 'a', 'n', 'a', 'i', 'r'], ['l', 'u', 'n', 'a', 's', 'a'], ['a', 'n', 'o', 'i', 's'], ['a', 'o', 'i', 'n', 'e'], ['d', 'f', 'o', 'm', 'h'], ['f', 'e', 'a', 'b', 'h'], ['i', 'n', 'n', 'i', 'u'], ['m', 'a', 'i', 'r', 't'], ['m', 'a', 'r', 't', 'a'], ['m', 'e', 'i', 't', 'h'], ['m', 'f', 'o', 'm', 'h'], ['b', 'e', 'a', 'l'], ['c', 'e', 'a', 'd'], ['d', 'e', 'a', 'r'], ['d', 'o', 'm', 'h'], ['i', 'n', 'n', 'e'], ['i', 'u', 'i', 'l'], ['l', 'u', 'a', 'n'], ['n', 'o', 'i', 'm'], ['n', 'o', 'l', 'l'], ['s', 'a', 'm', 'h'], ['s', 'a', 't', 'h'], ['s', 'c', 'h', 't'], ['s', 'o', 'i', 'c'], ['u', 'a', 'i', 'r'], ['a', 'i', 'b'], ['e', 'a', 'n'], ['g', 'm', 't'], ['l', 'u', 'n'], ['u', 't', 'c'], ['a', 'm'], ['b', 'l'], ['l', 'a'], ['m', 'i'], ['p', 'm'], [' '], ['\''], ['+'], [','], ['-'], ['.'], ['/'], [':'], [';'], ['@'], ['['], [']'], ['n'], ['s'], ['u'], ['z'], ['|']] }

/-- internal/data/gd.go: `gd_Locale`. -/
def gdLang : LangData := { gdDict with
  relativeRegexes :=
   [(.seqs [.lit ['a', 'n', ' ', 'c', 'e', 'a', 'n', 'n', ' '], .grp 1 (.number), .lit [' ', 'u', 'a', 'i', 'r', ' ', 'a', ' ', 't', 'h', 'i', 'd', 'e']], [.lit ['i', 'n', ' '], .ref 1, .lit [' ', 'h', 'o', 'u', 'r']]),
    (.seqs [.grp 1 (.number), .lit [' ', 'u', 'a', 'i', 'r', ' ', 'a', ' ', 't', 'h', 'i', 'd', 'e', ' ', 'a', 'i', 'r', ' ', 'a', 'i', 's']], [.ref 1, .lit [' ', 'h', 'o', 'u', 'r', ' ', 'a', 'g', 'o']]),
    (.seqs [.lit ['a', 'n', ' ', 'c', 'e', 'a', 'n', 'n', ' '], .grp 1 (.number), .lit [' ', 'b', 'h', 'l', 'i', 'a', 'd', 'h', 'n', 'a']], [.lit ['i', 'n', ' '], .ref 1, .lit [' ', 'y', 'e', 'a', 'r']]),
    (.seqs [.lit ['a', 'n', ' ', 'c', 'e', 'a', 'n', 'n', ' '], .grp 1 (.number), .lit [' ', 's', 'e', 'a', 'c', 'h', 'd', 'a', 'i', 'n']], [.lit ['i', 'n', ' '], .ref 1, .lit [' ', 'w', 'e', 'e', 'k']]),
    (.seqs [.grp 1 (.number), .lit [' ', 'b', 'h', 'l', 'i', 'a', 'd', 'h', 'n', 'a', ' ', 'a', 'i', 'r', ' ', 'a', 'i', 's']], [.ref 1, .lit [' ', 'y', 'e', 'a', 'r', ' ', 'a', 'g', 'o']]),
    (.seqs [.grp 1 (.number), .lit [' ', 's', 'e', 'a', 'c', 'h', 'd', 'a', 'i', 'n', ' ', 'a', 'i', 'r', ' ', 'a', 'i', 's']], [.ref 1, .lit [' ', 'w', 'e', 'e', 'k', ' ', 'a', 'g', 'o']]),
    (.seqs [.lit ['a', 'n', ' ', 'c', 'e', 'a', 'n', 'n', ' '], .grp 1 (.number), .lit [' ', 'b', 'l', 'i', 'a', 'd', 'h', 'n', 'a']], [.lit ['i', 'n', ' '], .ref 1, .lit [' ', 'y', 'e', 'a', 'r']]),
    (.seqs [.lit ['a', 'n', ' ', 'c', 'e', 'a', 'n', 'n', ' '], .grp 1 (.number), .lit [' ', 'm', 'h', 'i', 'o', 'n', 'a', 'i', 'd']], [.lit ['i', 'n', ' '], .ref 1, .lit [' ', 'm', 'i', 'n', 'u', 't', 'e']]),
    (.seqs [.grp 1 (.number), .lit [' ', 'b', 'l', 'i', 'a', 'd', 'h', 'n', 'a', ' ', 'a', 'i', 'r', ' ', 'a', 'i', 's']], [.ref 1, .lit [' ', 'y', 'e', 'a', 'r', ' ', 'a', 'g', 'o']]),
    (.seqs [.grp 1 (.number), .lit [' ', 'm', 'h', 'i', 'o', 'n', 'a', 'i', 'd', ' ', 'a', 'i', 'r', ' ', 'a', 'i', 's']], [.ref 1, .lit [' ', 'm', 'i', 'n', 'u', 't', 'e', ' ', 'a', 'g', 'o']]),
    (.seqs [.lit ['a', 'n', ' ', 'c', 'e', 'a', 'n', 'n', ' '], .grp 1 (.number), .lit [' ', 'm', 'i', 'o', 'n', 'a', 'i', 'd']], [.lit ['i', 'n', ' '], .ref 1, .lit [' ', 'm', 'i', 'n', 'u', 't', 'e']]),
    (.seqs [.grp 1 (.number), .lit [' ', 'm', 'i', 'o', 'n', 'a', 'i', 'd', ' ', 'a', 'i', 'r', ' ', 'a', 'i', 's']], [.ref 1, .lit [' ', 'm', 'i', 'n', 'u', 't', 'e', ' ', 'a', 'g', 'o']]),
    (.seqs [.lit ['a', 'n', ' ', 'c', 'e', 'a', 'n', 'n', ' '], .grp 1 (.number), .lit [' ', 'm', 'h', 'i', 'o', 's', 'a']], [.lit ['i', 'n', ' '], .ref 1, .lit [' ', 'm', 'o', 'n', 't', 'h']]),
    (.seqs [.lit ['a', 'n', ' ', 'c', 'e', 'a', 'n', 'n', ' '], .grp 1 (.number), .lit [' ', 'l', 'a', 't', 'h', 'a']], [.lit ['i', 'n', ' '], .ref 1, .lit [' ', 'd', 'a', 'y']]),
    (.seqs [.lit ['a', 'n', ' ', 'c', 'e', 'a', 'n', 'n', ' '], .grp 1 (.number), .lit [' ', 'm', 'i', 'o', 's', 'a']], [.lit ['i', 'n', ' '], .ref 1, .lit [' ', 'm', 'o', 'n', 't', 'h']]),
    (.seqs [.grp 1 (.number), .lit [' ', 'l', 'a', 't', 'h', 'a', ' ', 'a', 'i', 'r', ' ', 'a', 'i', 's']], [.ref 1, .lit [' ', 'd', 'a', 'y', ' ', 'a', 'g', 'o']]),
    (.seqs [.grp 1 (.number), .lit [' ', 'm', 'h', 'i', 'o', 's', ' ', 'a', 'i', 'r', ' ', 'a', 'i', 's']], [.ref 1, .lit [' ', 'm', 'o', 'n', 't', 'h', ' ', 'a', 'g', 'o']]),
    (.seqs [.lit ['a', 'n', ' ', 'c', 'e', 'a', 'n', 'n', ' '], .grp 1 (.number), .lit [' ', 'd', 'i', 'o', 'g']], [.lit ['i', 'n', ' '], .ref 1, .lit [' ', 's', 'e', 'c', 'o', 'n', 'd']]),
    (.seqs [.grp 1 (.number), .lit [' ', 'd', 'i', 'o', 'g', ' ', 'a', 'i', 'r', ' ', 'a', 'i', 's']], [.ref 1, .lit [' ', 's', 'e', 'c', 'o', 'n', 'd', ' ', 'a', 'g', 'o']]),
    (.seqs [.grp 1 (.number), .lit [' ', 'm', 'i', 'o', 's', ' ', 'a', 'i', 'r', ' ', 'a', 'i', 's']], [.ref 1, .lit [' ', 'm', 'o', 'n', 't', 'h', ' ', 'a', 'g', 'o']]),
    (.seqs [.lit ['a', 'n', ' '], .grp 1 (.number), .lit [' ', 's', 'h', 'e', 'a', 'c', 'h', 'd']], [.lit ['i', 'n', ' '], .ref 1, .lit [' ', 'w', 'e', 'e', 'k']]),
    (.seqs [.lit ['a', 'n', ' '], .grp 1 (.number), .lit [' ', 's', 'e', 'a', 'c', 'h', 'd']], [.lit ['i', 'n', ' '], .ref 1, .lit [' ', 'w', 'e', 'e', 'k']]),
    (.seqs [.lit ['o', ' '], .grp 1 (.number), .lit [' ', 's', 'h', 'e', 'a', 'c', 'h', 'd']], [.ref 1, .lit [' ', 'w', 'e', 'e', 'k', ' ', 'a', 'g', 'o']]),
    (.seqs [.lit ['a', 'n', ' '], .grp 1 (.number), .lit [' ', 'b', 'h', 'l', 'i', 'a']], [.lit ['i', 'n', ' '], .ref 1, .lit [' ', 'y', 'e', 'a', 'r']]),
    (.seqs [.lit ['a', 'n', ' '], .grp 1 (.number), .lit [' ', 'm', 'h', 'i', 'o', 'n']], [.lit ['i', 'n', ' '], .ref 1, .lit [' ', 'm', 'i', 'n', 'u', 't', 'e']]),
    (.seqs [.lit ['a', 'n', ' '], .grp 1 (.number), .lit [' ', 'm', 'h', 'i', 'o', 's']], [.lit ['i', 'n', ' '], .ref 1, .lit [' ', 'm', 'o', 'n', 't', 'h']]),
    (.seqs [.lit ['o', ' '], .grp 1 (.number), .lit [' ', 's', 'e', 'a', 'c', 'h', 'd']], [.ref 1, .lit [' ', 'w', 'e', 'e', 'k', ' ', 'a', 'g', 'o']]),
    (.seqs [.lit ['a', 'n', ' '], .grp 1 (.number), .lit [' ', 'b', 'l', 'i', 'a']], [.lit ['i', 'n', ' '], .ref 1, .lit [' ', 'y', 'e', 'a', 'r']]),
    (.seqs [.lit ['a', 'n', ' '], .grp 1 (.number), .lit [' ', 'd', 'i', 'o', 'g']], [.lit ['i', 'n', ' '], .ref 1, .lit [' ', 's', 'e', 'c', 'o', 'n', 'd']]),
    (.seqs [.lit ['a', 'n', ' '], .grp 1 (.number), .lit [' ', 'm', 'i', 'o', 'n']], [.lit ['i', 'n', ' '], .ref 1, .lit [' ', 'm', 'i', 'n', 'u', 't', 'e']]),
    (.seqs [.lit ['a', 'n', ' '], .grp 1 (.number), .lit [' ', 'm', 'i', 'o', 's']], [.lit ['i', 'n', ' '], .ref 1, .lit [' ', 'm', 'o', 'n', 't', 'h']]),
    (.seqs [.lit ['a', 'n', ' '], .grp 1 (.number), .lit [' ', 'u', 'a', 'i', 'r']], [.lit ['i', 'n', ' '], .ref 1, .lit [' ', 'h', 'o', 'u', 'r']]),
    (.seqs [.lit ['o', ' '], .grp 1 (.number), .lit [' ', 'b', 'h', 'l', 'i', 'a']], [.ref 1, .lit [' ', 'y', 'e', 'a', 'r', ' ', 'a', 'g', 'o']]),
    (.seqs [.lit ['o', ' '], .grp 1 (.number), .lit [' ', 'm', 'h', 'i', 'o', 'n']], [.ref 1, .lit [' ', 'm', 'i', 'n', 'u', 't', 'e', ' ', 'a', 'g', 'o']]),
    (.seqs [.lit ['o', ' '], .grp 1 (.number), .lit [' ', 'm', 'h', 'i', 'o', 's']], [.ref 1, .lit [' ', 'm', 'o', 'n', 't', 'h', ' ', 'a', 'g', 'o']]),
    (.seqs [.lit ['o', ' '], .grp 1 (.number), .lit [' ', 'b', 'l', 'i', 'a']], [.ref 1, .lit [' ', 'y', 'e', 'a', 'r', ' ', 'a', 'g', 'o']]),
    (.seqs [.lit ['o', ' '], .grp 1 (.number), .lit [' ', 'd', 'i', 'o', 'g']], [.ref 1, .lit [' ', 's', 'e', 'c', 'o', 'n', 'd', ' ', 'a', 'g', 'o']]),
    (.seqs [.lit ['o', ' '], .grp 1 (.number), .lit [' ', 'm', 'i', 'o', 'n']], [.ref 1, .lit [' ', 'm', 'i', 'n', 'u', 't', 'e', ' ', 'a', 'g', 'o']]),
    (.seqs [.lit ['o', ' '], .grp 1 (.number), .lit [' ', 'm', 'i', 'o', 's']], [.ref 1, .lit [' ', 'm', 'o', 'n', 't', 'h', ' ', 'a', 'g', 'o']]),
    (.seqs [.lit ['o', ' '], .grp 1 (.number), .lit [' ', 'u', 'a', 'i', 'r']], [.ref 1, .lit [' ', 'h', 'o', 'u', 'r', ' ', 'a', 'g', 'o']]),
    (.seqs [.lit ['a', 'n', ' '], .grp 1 (.number), .lit [' ', 'l', 'a']], [.lit ['i', 'n', ' '], .ref 1, .lit [' ', 'd', 'a', 'y']]),
    (.seqs [.lit ['o', ' '], .grp 1 (.number), .lit [' ', 'l', 'a']], [.ref 1, .lit [' ', 'd', 'a', 'y', ' ', 'a', 'g', 'o']])],
  rxCombined := some (.seqs [.grp 1 (.alts [.bos, .cls true [.letter, .mark, .digit], .lit ['_']]), .grp 2 (.alts [.seqs [.lit ['a', 'n', ' ', 'c', 'e', 'a', 'n', 'n', ' '], .number, .lit [' ', 'u', 'a', 'i', 'r', ' ', 'a', ' ', 't', 'h', 'i', 'd', 'e']], .seqs [.number, .lit [' ', 'u', 'a', 'i', 'r', ' ', 'a', ' ', 't', 'h', 'i', 'd', 'e', ' ', 'a', 'i', 'r', ' ', 'a', 'i', 's']], .seqs [.lit ['a', 'n', ' ', 'c', 'e', 'a', 'n', 'n', ' '], .number, .lit [' ', 'b', 'h', 'l', 'i', 'a', 'd', 'h', 'n', 'a']], .seqs [.lit ['a', 'n', ' ', 'c', 'e', 'a', 'n', 'n', ' '], .number, .lit [' ', 's', 'e', 'a', 'c', 'h', 'd', 'a', 'i', 'n']], .seqs [.number, .lit [' ', 'b', 'h', 'l', 'i', 'a', 'd', 'h', 'n', 'a', ' ', 'a', 'i', 'r', ' ', 'a', 'i', 's']], .seqs [.number, .lit [' ', 's', 'e', 'a', 'c', 'h', 'd', 'a', 'i', 'n', ' ', 'a', 'i', 'r', ' ', 'a', 'i', 's']], .seqs [.lit ['a', 'n', ' ', 'c', 'e', 'a', 'n', 'n', ' '], .number, .lit [' ', 'b', 'l', 'i', 'a', 'd', 'h', 'n', 'a']], .seqs [.lit ['a', 'n', ' ', 'c', 'e', 'a', 'n', 'n', ' '], .number, .lit [' ', 'm', 'h', 'i', 'o', 'n', 'a', 'i', 'd']], .seqs [.number, .lit [' ', 'b', 'l', 'i', 'a', 'd', 'h', 'n', 'a', ' ', 'a', 'i', 'r', ' ', 'a', 'i', 's']], .seqs [.number, .lit [' ', 'm', 'h', 'i', 'o', 'n', 'a', 'i', 'd', ' ', 'a', 'i', 'r', ' ', 'a', 'i', 's']], .seqs [.lit ['a', 'n', ' ', 'c', 'e', 'a', 'n', 'n', ' '], .number, .lit [' ', 'm', 'i', 'o', 'n', 'a', 'i', 'd']], .seqs [.number, .lit [' ', 'm', 'i', 'o', 'n', 'a', 'i', 'd', ' ', 'a', 'i', 'r', ' ', 'a', 'i', 's']], .seqs [.lit ['a', 'n', ' ', 'c', 'e', 'a', 'n', 'n', ' '], .number, .lit [' ', 'm', 'h', 'i', 'o', 's', 'a']], .seqs [.lit ['a', 'n', ' ', 'c', 'e', 'a', 'n', 'n', ' '], .number, .lit [' ', 'l', 'a', 't', 'h', 'a']], .seqs [.lit ['a', 'n', ' ', 'c', 'e', 'a', 'n', 'n', ' '], .number, .lit [' ', 'm', 'i', 'o', 's', 'a']], .seqs [.number, .lit [' ', 'l', 'a', 't', 'h', 'a', ' ', 'a', 'i', 'r', ' ', 'a', 'i', 's']], .seqs [.number, .lit [' ', 'm', 'h', 'i', 'o', 's', ' ', 'a', 'i', 'r', ' ', 'a', 'i', 's']], .seqs [.lit ['a', 'n', ' ', 'c', 'e', 'a', 'n', 'n', ' '], .number, .lit [' ', 'd', 'i', 'o', 'g']], .seqs [.number, .lit [' ', 'd', 'i', 'o', 'g', ' ', 'a', 'i', 'r', ' ', 'a', 'i', 's']], .seqs [.number, .lit [' ', 'm', 'i', 'o', 's', ' ', 'a', 'i', 'r', ' ', 'a', 'i', 's']], .seqs [.lit ['a', 'n', ' '], .number, .lit [' ', 's', 'h', 'e', 'a', 'c', 'h', 'd']], .seqs [.lit ['a', 'n', ' '], .number, .lit [' ', 's', 'e', 'a', 'c', 'h', 'd']], .seqs [.lit ['o', ' '], .number, .lit [' ', 's', 'h', 'e', 'a', 'c', 'h', 'd']], .seqs [.lit ['a', 'n', ' '], .number, .lit [' ', 'b', 'h', 'l', 'i', 'a']], .seqs [.lit ['a', 'n', ' '], .number, .lit [' ', 'm', 'h', 'i', 'o', 'n']], .seqs [.lit ['a', 'n', ' '], .number, .lit [' ', 'm', 'h', 'i', 'o', 's']], .seqs [.lit ['o', ' '], .number, .lit [' ', 's', 'e', 'a', 'c', 'h', 'd']], .seqs [.lit ['a', 'n', ' '], .number, .lit [' ', 'b', 'l', 'i', 'a']], .seqs [.lit ['a', 'n', ' '], .number, .lit [' ', 'd', 'i', 'o', 'g']], .seqs [.lit ['a', 'n', ' '], .number, .lit [' ', 'm', 'i', 'o', 'n']], .seqs [.lit ['a', 'n', ' '], .number, .lit [' ', 'm', 'i', 'o', 's']], .seqs [.lit ['a', 'n', ' '], .number, .lit [' ', 'u', 'a', 'i', 'r']], .seqs [.lit ['o', ' '], .number, .lit [' ', 'b', 'h', 'l', 'i', 'a']], .seqs [.lit ['o', ' '], .number, .lit [' ', 'm', 'h', 'i', 'o', 'n']], .seqs [.lit ['o', ' '], .number, .lit [' ', 'm', 'h', 'i', 'o', 's']], .seqs [.lit ['o', ' '], .number, .lit [' ', 'b', 'l', 'i', 'a']], .seqs [.lit ['o', ' '], .number, .lit [' ', 'd', 'i', 'o', 'g']], .seqs [.lit ['o', ' '], .number, .lit [' ', 'm', 'i', 'o', 'n']], .seqs [.lit ['o', ' '], .number, .lit [' ', 'm', 'i', 'o', 's']], .seqs [.lit ['o', ' '], .number, .lit [' ', 'u', 'a', 'i', 'r']], .seqs [.lit ['a', 'n', ' '], .number, .lit [' ', 'l', 'a']], .seqs [.lit ['o', ' '], .number, .lit [' ', 'l', 'a']]]), .grp 3 (.alts [.eos, .cls true [.letter, .mark, .digit], .lit ['_']])], 3),
  rxExact := some (.seqs [.bos, .grp 1 (.alts [.seqs [.lit ['a', 'n', ' ', 'c', 'e', 'a', 'n', 'n', ' '], .number, .lit [' ', 'u', 'a', 'i', 'r', ' ', 'a', ' ', 't', 'h', 'i', 'd', 'e']], .seqs [.number, .lit [' ', 'u', 'a', 'i', 'r', ' ', 'a', ' ', 't', 'h', 'i', 'd', 'e', ' ', 'a', 'i', 'r', ' ', 'a', 'i', 's']], .seqs [.lit ['a', 'n', ' ', 'c', 'e', 'a', 'n', 'n', ' '], .number, .lit [' ', 'b', 'h', 'l', 'i', 'a', 'd', 'h', 'n', 'a']], .seqs [.lit ['a', 'n', ' ', 'c', 'e', 'a', 'n', 'n', ' '], .number, .lit [' ', 's', 'e', 'a', 'c', 'h', 'd', 'a', 'i', 'n']], .seqs [.number, .lit [' ', 'b', 'h', 'l', 'i', 'a', 'd', 'h', 'n', 'a', ' ', 'a', 'i', 'r', ' ', 'a', 'i', 's']], .seqs [.number, .lit [' ', 's', 'e', 'a', 'c', 'h', 'd', 'a', 'i', 'n', ' ', 'a', 'i', 'r', ' ', 'a', 'i', 's']], .seqs [.lit ['a', 'n', ' ', 'c', 'e', 'a', 'n', 'n', ' '], .number, .lit [' ', 'b', 'l', 'i', 'a', 'd', 'h', 'n', 'a']], .seqs [.lit ['a', 'n', ' ', 'c', 'e', 'a', 'n', 'n', ' '], .number, .lit [' ', 'm', 'h', 'i', 'o', 'n', 'a', 'i', 'd']], .seqs [.number, .lit [' ', 'b', 'l', 'i', 'a', 'd', 'h', 'n', 'a', ' ', 'a', 'i', 'r', ' ', 'a', 'i', 's']], .seqs [.number, .lit [' ', 'm', 'h', 'i', 'o', 'n', 'a', 'i', 'd', ' ', 'a', 'i', 'r', ' ', 'a', 'i', 's']], .seqs [.lit ['a', 'n', ' ', 'c', 'e', 'a', 'n', 'n', ' '], .number, .lit [' ', 'm', 'i', 'o', 'n', 'a', 'i', 'd']], .seqs [.number, .lit [' ', 'm', 'i', 'o', 'n', 'a', 'i', 'd', ' ', 'a', 'i', 'r', ' ', 'a', 'i', 's']], .seqs [.lit ['a', 'n', ' ', 'c', 'e', 'a', 'n', 'n', ' '], .number, .lit [' ', 'm', 'h', 'i', 'o', 's', 'a']], .seqs [.lit ['a', 'n', ' ', 'c', 'e', 'a', 'n', 'n', ' '], .number, .lit [' ', 'l', 'a', 't', 'h', 'a']], .seqs [.lit ['a', 'n', ' ', 'c', 'e', 'a', 'n', 'n', ' '], .number, .lit [' ', 'm', 'i', 'o', 's', 'a']], .seqs [.number, .lit [' ', 'l', 'a', 't', 'h', 'a', ' ', 'a', 'i', 'r', ' ', 'a', 'i', 's']], .seqs [.number, .lit [' ', 'm', 'h', 'i', 'o', 's', ' ', 'a', 'i', 'r', ' ', 'a', 'i', 's']], .seqs [.lit ['a', 'n', ' ', 'c', 'e', 'a', 'n', 'n', ' '], .number, .lit [' ', 'd', 'i', 'o', 'g']], .seqs [.number, .lit [' ', 'd', 'i', 'o', 'g', ' ', 'a', 'i', 'r', ' ', 'a', 'i', 's']], .seqs [.number, .lit [' ', 'm', 'i', 'o', 's', ' ', 'a', 'i', 'r', ' ', 'a', 'i', 's']], .seqs [.lit ['a', 'n', ' '], .number, .lit [' ', 's', 'h', 'e', 'a', 'c', 'h', 'd']], .seqs [.lit ['a', 'n', ' '], .number, .lit [' ', 's', 'e', 'a', 'c', 'h', 'd']], .seqs [.lit ['o', ' '], .number, .lit [' ', 's', 'h', 'e', 'a', 'c', 'h', 'd']], .seqs [.lit ['a', 'n', ' '], .number, .lit [' ', 'b', 'h', 'l', 'i', 'a']], .seqs [.lit ['a', 'n', ' '], .number, .lit [' ', 'm', 'h', 'i', 'o', 'n']], .seqs [.lit ['a', 'n', ' '], .number, .lit [' ', 'm', 'h', 'i', 'o', 's']], .seqs [.lit ['o', ' '], .number, .lit [' ', 's', 'e', 'a', 'c', 'h', 'd']], .seqs [.lit ['a', 'n', ' '], .number, .lit [' ', 'b', 'l', 'i', 'a']], .seqs [.lit ['a', 'n', ' '], .number, .lit [' ', 'd', 'i', 'o', 'g']], .seqs [.lit ['a', 'n', ' '], .number, .lit [' ', 'm', 'i', 'o', 'n']], .seqs [.lit ['a', 'n', ' '], .number, .lit [' ', 'm', 'i', 'o', 's']], .seqs [.lit ['a', 'n', ' '], .number, .lit [' ', 'u', 'a', 'i', 'r']], .seqs [.lit ['o', ' '], .number, .lit [' ', 'b', 'h', 'l', 'i', 'a']], .seqs [.lit ['o', ' '], .number, .lit [' ', 'm', 'h', 'i', 'o', 'n']], .seqs [.lit ['o', ' '], .number, .lit [' ', 'm', 'h', 'i', 'o', 's']], .seqs [.lit ['o', ' '], .number, .lit [' ', 'b', 'l', 'i', 'a']], .seqs [.lit ['o', ' '], .number, .lit [' ', 'd', 'i', 'o', 'g']], .seqs [.lit ['o', ' '], .number, .lit [' ', 'm', 'i', 'o', 'n']], .seqs [.lit ['o', ' '], .number, .lit [' ', 'm', 'i', 'o', 's']], .seqs [.lit ['o', ' '], .number, .lit [' ', 'u', 'a', 'i', 'r']], .seqs [.lit ['a', 'n', ' '], .number, .lit [' ', 'l', 'a']], .seqs [.lit ['o', ' '], .number, .lit [' ', 'l', 'a']]]), .eos]),
  knownWords :=
   [['a', 'n', ' ', 't', '-', 's', 'e', 'a', 'c', 'h', 'd', 'a', 'i', 'n', ' ', 's', 'e', 'o', ' ', 'c', 'h', 'a', 'i', 'd', 'h'], ['a', 'm', ' ', 'm', 'i', 'o', 's', ' ', 's', 'e', 'o', ' ', 'c', 'h', 'a', 'i', 'd', 'h'], ['a', 'n', ' ', 't', '-', 's', 'e', 'a', 'c', 'h', 'd', 'a', 'i', 'n', ' ', 's', 'e', 'o'], ['a', 'm', ' ', 'm', 'i', 'o', 's', ' ', 's', 'a', ' ', 'c', 'h', 'a', 'i', 'd', 'h'], ['a', 'n', ' ', 'a', 't', 'h', '-', 's', 'h', 'e', 'a', 'c', 'h', 'd', 'a', 'i', 'n'], ['a', 'n', ' ', 'a', 't', 'h', '-', 'b', 'h', 'l', 'i', 'a', 'd', 'h', 'n', 'a'], ['d', 'h', 'e', 'n', ' ', 'f', 'h', 'a', 'o', 'i', 'l', 'l', 'e', 'a', 'c', 'h'], ['s', 'e', 'a', 'c', 'h', 'd', ' ', 's', 'a', ' ', 'c', 'h', 'a', 'i', 'd', 'h'], ['a', 'n', ' ', 't', '-', 's', 'e', 'a', 'c', 'h', 'd', ' ', 's', 'e', 'o'], ['a', 'n', ' ', 'a', 't', 'h', '-', 's', 'h', 'e', 'a', 'c', 'h', 'd'], ['d', 'h', 'e', 'n', ' ', 'd', 'u', 'b', 'h', 'l', 'a', 'c', 'h', 'd'], ['d', 'h', 'e', 'n', ' ', 't', '-', 's', 'a', 'm', 'h', 'a', 'i', 'n'], ['d', 'h', 'e', 'n', ' ', 't', '-', 's', 'u', 'l', 't', 'a', 'i', 'n'], ['a', 'm', ' ', 'f', 'a', 'o', 'i', 'l', 'l', 'e', 'a', 'c', 'h'], ['d', 'h', 'e', 'n', ' ', 'c', 'h', 'e', 'i', 't', 'e', 'a', 'n'], ['d', 'h', 'e', 'n', ' ', 'g', 'h', 'e', 'a', 'r', 'r', 'a', 'n'], ['d', 'h', 'e', 'n', ' ', 'g', 'h', 'i', 'b', 'l', 'e', 'a', 'n'], ['d', 'h', 'e', 'n', ' ', 'l', 'u', 'n', 'a', 's', 't', 'a', 'l'], ['a', 'n', ' ', 'a', 't', 'h', '-', 'm', 'h', 'i', 'o', 's'], ['a', 'n', ' ', 'd', 'u', 'b', 'h', 'l', 'a', 'c', 'h', 'd'], ['a', 'n', ' ', 't', '-', 'o', 'g', 'm', 'h', 'i', 'o', 's'], ['a', 'n', ' ', 't', '-', 's', 'a', 'm', 'h', 'a', 'i', 'n'], ['a', 'n', ' ', 't', '-', 's', 'u', 'l', 't', 'a', 'i', 'n'], ['d', 'h', 'e', 'n', ' ', 'd', 'a', 'm', 'h', 'a', 'i', 'r'], ['d', 'h', 'e', 'n', ' ', 'o', 'g', 'm', 'h', 'i', 'o', 's'], ['u', 'a', 'i', 'r', ' ', 'a', ' ', 't', 'h', 'i', 'd', 'e'], ['a', 'm', ' ', 'b', 'l', 'i', 'a', 'd', 'h', 'n', 'a'], ['a', 'm', ' ', 'm', 'i', 'o', 's', ' ', 's', 'e', 'o'], ['a', 'n', ' ', 'l', 'u', 'n', 'a', 's', 't', 'a', 'l'], ['a', 'n', ' ', 't', '-', 'i', 'u', 'c', 'h', 'a', 'r'], ['a', 'n', ' ', 't', '-', 's', 'n', ' ', 's', 'e', 'o'], ['d', 'h', 'e', 'n', ' ', 'i', 'u', 'c', 'h', 'a', 'r'], ['d', 'i', 'd', 'o', 'm', 'h', 'n', 'a', 'i', 'c', 'h'], ['d', 'i', 's', 'a', 't', 'h', 'a', 'i', 'r', 'n', 'e'], ['t', 'h', 'i', 's', ' ', 'm', 'i', 'n', 'u', 't', 'e'], ['a', '-', 'm', 'a', 'i', 'r', 'e', 'a', 'c', 'h'], ['a', 'n', ' ', 'a', 't', 'h', '-', 'b', 'h', 'l'], ['a', 'n', ' ', 'c', 'e', 'i', 't', 'e', 'a', 'n'], ['a', 'n', ' ', 'd', 'a', 'm', 'h', 'a', 'i', 'r'], ['a', 'n', ' ', 'g', 'e', 'a', 'r', 'r', 'a', 'n'], ['a', 'n', ' ', 'g', 'i', 'b', 'l', 'e', 'a', 'n'], ['d', 'h', 'e', 'n', ' ', 'm', 'h', 'a', 'r', 't'], ['a', 'm', ' ', 'm', 'i', ' ', 's', 'e', 'o'], ['a', 'n', '-', 'd', 'r', 'a', 's', 't', 'a'], ['a', 'n', '-', 'u', 'i', 'r', 'i', 'd', 'h'], ['d', 'i', 'a', 'r', 'd', 'a', 'o', 'i', 'n'], ['d', 'i', 'c', 'i', 'a', 'd', 'a', 'i', 'n'], ['s', 'e', 'a', 'c', 'h', 'd', 'a', 'i', 'n'], ['t', 'h', 'i', 's', ' ', 'h', 'o', 'u', 'r'], ['a', 'n', '-', 'd', 'i', 'u', 'g', 'h'], ['b', 'l', 'i', 'a', 'd', 'h', 'n', 'a'], ['d', 'i', 'h', 'a', 'o', 'i', 'n', 'e'], ['a', 'm', ' ', 'm', 'a', 'r', 't'], ['a', 't', 'h', '-', 'm', 'h', 'i'], ['a', 't', 'h', '-', 's', 'h', 'n'], ['d', 'i', 'l', 'u', 'a', 'i', 'n'], ['d', 'i', 'm', 'a', 'i', 'r', 't'], ['m', 'i', 'o', 'n', 'a', 'i', 'd'], ['a', 'n', '-', 'u', 'i', 'r'], ['s', 'e', 'a', 'c', 'h', 'd'], ['a', 'm', ' ', 'b', 'l'], ['a', 'n', '-', 'd', 'e'], ['g', 'e', 'a', 'r', 'r'], ['l', 'a', 't', 'h', 'a'], ['m', 'i', ' ', 'c', 'h'], ['s', 'n', ' ', 'c', 'h'], ['b', 'l', 'i', 'a'], ['c', 'e', 'i', 't'], ['d', 'a', 'm', 'h'], ['d', 'i', 'o', 'g'], ['d', 'u', 'b', 'h'], ['f', 'a', 'o', 'i'], ['g', 'i', 'b', 'l'], ['i', 'u', 'c', 'h'], ['l', 'u', 'n', 'a'], ['m', 'a', 'r', 't'], ['m', 'i', 'o', 'n'], ['m', 'i', 'o', 's'], ['o', 'g', 'm', 'h'], ['s', 'a', 'm', 'h'], ['s', 'u', 'l', 't'], ['u', 'a', 'i', 'r'], ['d', 'i', 'a'], ['d', 'i', 'c'], ['d', 'i', 'd'], ['d', 'i', 'h'], ['d', 'i', 'l'], ['d', 'i', 'm'], ['d', 'i', 's'], ['g', 'm', 't'], ['u', 't', 'c'], ['a', 'm'], ['b', 'l'], ['l', 'a'], ['m', 'i'], ['p', 'm'], ['s', 'n'], [' '], ['\''], ['+'], [','], ['-'], ['.'], ['/'], [':'], [';'], ['@'], ['['], [']'], ['d'], ['f'], ['m'], ['u'], ['z'], ['|']] }

/-- internal/data/gl.go: `gl_Locale`. -/
def glLang : LangData := { glDict with
  relativeRegexes :=
   [(.seqs [.lit ['h', 'a', 'i', ' '], .grp 1 (.number), .lit [' ', 's', 'e', 'g', 'u', 'n', 'd', 'o', 's']], [.ref 1, .lit [' ', 's', 'e', 'c', 'o', 'n', 'd', ' ', 'a', 'g', 'o']]),
    (.seqs [.lit ['e', 'n', ' '], .grp 1 (.number), .lit [' ', 's', 'e', 'g', 'u', 'n', 'd', 'o', 's']], [.lit ['i', 'n', ' '], .ref 1, .lit [' ', 's', 'e', 'c', 'o', 'n', 'd']]),
    (.seqs [.lit ['h', 'a', 'i', ' '], .grp 1 (.number), .lit [' ', 'm', 'i', 'n', 'u', 't', 'o', 's']], [.ref 1, .lit [' ', 'm', 'i', 'n', 'u', 't', 'e', ' ', 'a', 'g', 'o']]),
    (.seqs [.lit ['h', 'a', 'i', ' '], .grp 1 (.number), .lit [' ', 's', 'e', 'g', 'u', 'n', 'd', 'o']], [.ref 1, .lit [' ', 's', 'e', 'c', 'o', 'n', 'd', ' ', 'a', 'g', 'o']]),
    (.seqs [.lit ['h', 'a', 'i', ' '], .grp 1 (.number), .lit [' ', 's', 'e', 'm', 'a', 'n', 'a', 's']], [.ref 1, .lit [' ', 'w', 'e', 'e', 'k', ' ', 'a', 'g', 'o']]),
    (.seqs [.lit ['e', 'n', ' '], .grp 1 (.number), .lit [' ', 'm', 'i', 'n', 'u', 't', 'o', 's']], [.lit ['i', 'n', ' '], .ref 1, .lit [' ', 'm', 'i', 'n', 'u', 't', 'e']]),
    (.seqs [.lit ['e', 'n', ' '], .grp 1 (.number), .lit [' ', 's', 'e', 'g', 'u', 'n', 'd', 'o']], [.lit ['i', 'n', ' '], .ref 1, .lit [' ', 's', 'e', 'c', 'o', 'n', 'd']]),
    (.seqs [.lit ['e', 'n', ' '], .grp 1 (.number), .lit [' ', 's', 'e', 'm', 'a', 'n', 'a', 's']], [.lit ['i', 'n', ' '], .ref 1, .lit [' ', 'w', 'e', 'e', 'k']]),
    (.seqs [.lit ['h', 'a', 'i', ' '], .grp 1 (.number), .lit [' ', 'm', 'i', 'n', 'u', 't', 'o']], [.ref 1, .lit [' ', 'm', 'i', 'n', 'u', 't', 'e', ' ', 'a', 'g', 'o']]),
    (.seqs [.lit ['h', 'a', 'i', ' '], .grp 1 (.number), .lit [' ', 's', 'e', 'm', 'a', 'n', 'a']], [.ref 1, .lit [' ', 'w', 'e', 'e', 'k', ' ', 'a', 'g', 'o']]),
    (.seqs [.lit ['e', 'n', ' '], .grp 1 (.number), .lit [' ', 'm', 'i', 'n', 'u', 't', 'o']], [.lit ['i', 'n', ' '], .ref 1, .lit [' ', 'm', 'i', 'n', 'u', 't', 'e']]),
    (.seqs [.lit ['e', 'n', ' '], .grp 1 (.number), .lit [' ', 's', 'e', 'm', 'a', 'n', 'a']], [.lit ['i', 'n', ' '], .ref 1, .lit [' ', 'w', 'e', 'e', 'k']]),
    (.seqs [.lit ['h', 'a', 'i', ' '], .grp 1 (.number), .lit [' ', 'h', 'o', 'r', 'a', 's']], [.ref 1, .lit [' ', 'h', 'o', 'u', 'r', ' ', 'a', 'g', 'o']]),
    (.seqs [.lit ['h', 'a', 'i', ' '], .grp 1 (.number), .lit [' ', 'm', 'e', 's', 'e', 's']], [.ref 1, .lit [' ', 'm', 'o', 'n', 't', 'h', ' ', 'a', 'g', 'o']]),
    (.seqs [.lit ['e', 'n', ' '], .grp 1 (.number), .lit [' ', 'h', 'o', 'r', 'a', 's']], [.lit ['i', 'n', ' '], .ref 1, .lit [' ', 'h', 'o', 'u', 'r']]),
    (.seqs [.lit ['e', 'n', ' '], .grp 1 (.number), .lit [' ', 'm', 'e', 's', 'e', 's']], [.lit ['i', 'n', ' '], .ref 1, .lit [' ', 'm', 'o', 'n', 't', 'h']]),
    (.seqs [.lit ['h', 'a', 'i', ' '], .grp 1 (.number), .lit [' ', 'a', 'n', 'o', 's']], [.ref 1, .lit [' ', 'y', 'e', 'a', 'r', ' ', 'a', 'g', 'o']]),
    (.seqs [.lit ['h', 'a', 'i', ' '], .grp 1 (.number), .lit [' ', 'd', 'i', 'a', 's']], [.ref 1, .lit [' ', 'd', 'a', 'y', ' ', 'a', 'g', 'o']]),
    (.seqs [.lit ['h', 'a', 'i', ' '], .grp 1 (.number), .lit [' ', 'h', 'o', 'r', 'a']], [.ref 1, .lit [' ', 'h', 'o', 'u', 'r', ' ', 'a', 'g', 'o']]),
    (.seqs [.lit ['e', 'n', ' '], .grp 1 (.number), .lit [' ', 'a', 'n', 'o', 's']], [.lit ['i', 'n', ' '], .ref 1, .lit [' ', 'y', 'e', 'a', 'r']]),
    (.seqs [.lit ['e', 'n', ' '], .grp 1 (.number), .lit [' ', 'd', 'i', 'a', 's']], [.lit ['i', 'n', ' '], .ref 1, .lit [' ', 'd', 'a', 'y']]),
    (.seqs [.lit ['e', 'n', ' '], .grp 1 (.number), .lit [' ', 'h', 'o', 'r', 'a']], [.lit ['i', 'n', ' '], .ref 1, .lit [' ', 'h', 'o', 'u', 'r']]),
    (.seqs [.lit ['h', 'a', 'i', ' '], .grp 1 (.number), .lit [' ', 'a', 'n', 'o']], [.ref 1, .lit [' ', 'y', 'e', 'a', 'r', ' ', 'a', 'g', 'o']]),
    (.seqs [.lit ['h', 'a', 'i', ' '], .grp 1 (.number), .lit [' ', 'd', 'i', 'a']], [.ref 1, .lit [' ', 'd', 'a', 'y', ' ', 'a', 'g', 'o']]),
    (.seqs [.lit ['h', 'a', 'i', ' '], .grp 1 (.number), .lit [' ', 'm', 'e', 's']], [.ref 1, .lit [' ', 'm', 'o', 'n', 't', 'h', ' ', 'a', 'g', 'o']]),
    (.seqs [.lit ['h', 'a', 'i', ' '], .grp 1 (.number), .lit [' ', 'm', 'i', 'n']], [.ref 1, .lit [' ', 'm', 'i', 'n', 'u', 't', 'e', ' ', 'a', 'g', 'o']]),
    (.seqs [.lit ['h', 'a', 'i', ' '], .grp 1 (.number), .lit [' ', 's', 'e', 'm']], [.ref 1, .lit [' ', 'w', 'e', 'e', 'k', ' ', 'a', 'g', 'o']]),
    (.seqs [.lit ['e', 'n', ' '], .grp 1 (.number), .lit [' ', 'a', 'n', 'o']], [.lit ['i', 'n', ' '], .ref 1, .lit [' ', 'y', 'e', 'a', 'r']]),
    (.seqs [.lit ['e', 'n', ' '], .grp 1 (.number), .lit [' ', 'd', 'i', 'a']], [.lit ['i', 'n', ' '], .ref 1, .lit [' ', 'd', 'a', 'y']]),
    (.seqs [.lit ['e', 'n', ' '], .grp 1 (.number), .lit [' ', 'm', 'e', 's']], [.lit ['i', 'n', ' '], .ref 1, .lit [' ', 'm', 'o', 'n', 't', 'h']]),
    (.seqs [.lit ['e', 'n', ' '], .grp 1 (.number), .lit [' ', 'm', 'i', 'n']], [.lit ['i', 'n', ' '], .ref 1, .lit [' ', 'm', 'i', 'n', 'u', 't', 'e']]),
    (.seqs [.lit ['e', 'n', ' '], .grp 1 (.number), .lit [' ', 's', 'e', 'm']], [.lit ['i', 'n', ' '], .ref 1, .lit [' ', 'w', 'e', 'e', 'k']]),
    (.seqs [.lit ['h', 'a', 'i', ' '], .grp 1 (.number), .lit [' ', 'a']], [.ref 1, .lit [' ', 'y', 'e', 'a', 'r', ' ', 'a', 'g', 'o']]),
    (.seqs [.lit ['h', 'a', 'i', ' '], .grp 1 (.number), .lit [' ', 'd']], [.ref 1, .lit [' ', 'd', 'a', 'y', ' ', 'a', 'g', 'o']]),
    (.seqs [.lit ['h', 'a', 'i', ' '], .grp 1 (.number), .lit [' ', 'h']], [.ref 1, .lit [' ', 'h', 'o', 'u', 'r', ' ', 'a', 'g', 'o']]),
    (.seqs [.lit ['h', 'a', 'i', ' '], .grp 1 (.number), .lit [' ', 'm']], [.ref 1, .lit [' ', 'm', 'o', 'n', 't', 'h', ' ', 'a', 'g', 'o']]),
    (.seqs [.lit ['h', 'a', 'i', ' '], .grp 1 (.number), .lit [' ', 's']], [.ref 1, .lit [' ', 's', 'e', 'c', 'o', 'n', 'd', ' ', 'a', 'g', 'o']]),
    (.seqs [.lit ['e', 'n', ' '], .grp 1 (.number), .lit [' ', 'a']], [.lit ['i', 'n', ' '], .ref 1, .lit [' ', 'y', 'e', 'a', 'r']]),
    (.seqs [.lit ['e', 'n', ' '], .grp 1 (.number), .lit [' ', 'd']], [.lit ['i', 'n', ' '], .ref 1, .lit [' ', 'd', 'a', 'y']]),
    (.seqs [.lit ['e', 'n', ' '], .grp 1 (.number), .lit [' ', 'h']], [.lit ['i', 'n', ' '], .ref 1, .lit [' ', 'h', 'o', 'u', 'r']]),
    (.seqs [.lit ['e', 'n', ' '], .grp 1 (.number), .lit [' ', 'm']], [.lit ['i', 'n', ' '], .ref 1, .lit [' ', 'm', 'o', 'n', 't', 'h']]),
    (.seqs [.lit ['e', 'n', ' '], .grp 1 (.number), .lit [' ', 's']], [.lit ['i', 'n', ' '], .ref 1, .lit [' ', 's', 'e', 'c', 'o', 'n', 'd']])],
  rxCombined := some (.seqs [.grp 1 (.alts [.bos, .cls true [.letter, .mark, .digit], .lit ['_']]), .grp 2 (.alts [.seqs [.lit ['h', 'a', 'i', ' '], .number, .lit [' ', 's', 'e', 'g', 'u', 'n', 'd', 'o', 's']], .seqs [.lit ['e', 'n', ' '], .number, .lit [' ', 's', 'e', 'g', 'u', 'n', 'd', 'o', 's']], .seqs [.lit ['h', 'a', 'i', ' '], .number, .lit [' ', 'm', 'i', 'n', 'u', 't', 'o', 's']], .seqs [.lit ['h', 'a', 'i', ' '], .number, .lit [' ', 's', 'e', 'g', 'u', 'n', 'd', 'o']], .seqs [.lit ['h', 'a', 'i', ' '], .number, .lit [' ', 's', 'e', 'm', 'a', 'n', 'a', 's']], .seqs [.lit ['e', 'n', ' '], .number, .lit [' ', 'm', 'i', 'n', 'u', 't', 'o', 's']], .seqs [.lit ['e', 'n', ' '], .number, .lit [' ', 's', 'e', 'g', 'u', 'n', 'd', 'o']], .seqs [.lit ['e', 'n', ' '], .number, .lit [' ', 's', 'e', 'm', 'a', 'n', 'a', 's']], .seqs [.lit ['h', 'a', 'i', ' '], .number, .lit [' ', 'm', 'i', 'n', 'u', 't', 'o']], .seqs [.lit ['h', 'a', 'i', ' '], .number, .lit [' ', 's', 'e', 'm', 'a', 'n', 'a']], .seqs [.lit ['e', 'n', ' '], .number, .lit [' ', 'm', 'i', 'n', 'u', 't', 'o']], .seqs [.lit ['e', 'n', ' '], .number, .lit [' ', 's', 'e', 'm', 'a', 'n', 'a']], .seqs [.lit ['h', 'a', 'i', ' '], .number, .lit [' ', 'h', 'o', 'r', 'a', 's']], .seqs [.lit ['h', 'a', 'i', ' '], .number, .lit [' ', 'm', 'e', 's', 'e', 's']], .seqs [.lit ['e', 'n', ' '], .number, .lit [' ', 'h', 'o', 'r', 'a', 's']], .seqs [.lit ['e', 'n', ' '], .number, .lit [' ', 'm', 'e', 's', 'e', 's']], .seqs [.lit ['h', 'a', 'i', ' '], .number, .lit [' ', 'a', 'n', 'o', 's']], .seqs [.lit ['h', 'a', 'i', ' '], .number, .lit [' ', 'd', 'i', 'a', 's']], .seqs [.lit ['h', 'a', 'i', ' '], .number, .lit [' ', 'h', 'o', 'r', 'a']], .seqs [.lit ['e', 'n', ' '], .number, .lit [' ', 'a', 'n', 'o', 's']], .seqs [.lit ['e', 'n', ' '], .number, .lit [' ', 'd', 'i', 'a', 's']], .seqs [.lit ['e', 'n', ' '], .number, .lit [' ', 'h', 'o', 'r', 'a']], .seqs [.lit ['h', 'a', 'i', ' '], .number, .lit [' ', 'a', 'n', 'o']], .seqs [.lit ['h', 'a', 'i', ' '], .number, .lit [' ', 'd', 'i', 'a']], .seqs [.lit ['h', 'a', 'i', ' '], .number, .lit [' ', 'm', 'e', 's']], .seqs [.lit ['h', 'a', 'i', ' '], .number, .lit [' ', 'm', 'i', 'n']], .seqs [.lit ['h', 'a', 'i', ' '], .number, .lit [' ', 's', 'e', 'm']], .seqs [.lit ['e', 'n', ' '], .number, .lit [' ', 'a', 'n', 'o']], .seqs [.lit ['e', 'n', ' '], .number, .lit [' ', 'd', 'i', 'a']], .seqs [.lit ['e', 'n', ' '], .number, .lit [' ', 'm', 'e', 's']], .seqs [.lit ['e', 'n', ' '], .number, .lit [' ', 'm', 'i', 'n']], .seqs [.lit ['e', 'n', ' '], .number, .lit [' ', 's', 'e', 'm']], .seqs [.lit ['h', 'a', 'i', ' '], .number, .lit [' ', 'a']], .seqs [.lit ['h', 'a', 'i', ' '], .number, .lit [' ', 'd']], .seqs [.lit ['h', 'a', 'i', ' '], .number, .lit [' ', 'h']], .seqs [.lit ['h', 'a', 'i', ' '], .number, .lit [' ', 'm']], .seqs [.lit ['h', 'a', 'i', ' '], .number, .lit [' ', 's']], .seqs [.lit ['e', 'n', ' '], .number, .lit [' ', 'a']], .seqs [.lit ['e', 'n', ' '], .number, .lit [' ', 'd']], .seqs [.lit ['e', 'n', ' '], .number, .lit [' ', 'h']], .seqs [.lit ['e', 'n', ' '], .number, .lit [' ', 'm']], .seqs [.lit ['e', 'n', ' '], .number, .lit [' ', 's']]]), .grp 3 (.alts [.eos, .cls true [.letter, .mark, .digit], .lit ['_']])], 3),
  rxExact := some (.seqs [.bos, .grp 1 (.alts [.seqs [.lit ['h', 'a', 'i', ' '], .number, .lit [' ', 's', 'e', 'g', 'u', 'n', 'd', 'o', 's']], .seqs [.lit ['e', 'n', ' '], .number, .lit [' ', 's', 'e', 'g', 'u', 'n', 'd', 'o', 's']], .seqs [.lit ['h', 'a', 'i', ' '], .number, .lit [' ', 'm', 'i', 'n', 'u', 't', 'o', 's']], .seqs [.lit ['h', 'a', 'i', ' '], .number, .lit [' ', 's', 'e', 'g', 'u', 'n', 'd', 'o']], .seqs [.lit ['h', 'a', 'i', ' '], .number, .lit [' ', 's', 'e', 'm', 'a', 'n', 'a', 's']], .seqs [.lit ['e', 'n', ' '], .number, .lit [' ', 'm', 'i', 'n', 'u', 't', 'o', 's']], .seqs [.lit ['e', 'n', ' '], .number, .lit [' ', 's', 'e', 'g', 'u', 'n', 'd', 'o']], .seqs [.lit ['e', 'n', ' '], .number, .lit [' ', 's', 'e', 'm', 'a', 'n', 'a', 's']], .seqs [.lit ['h', 'a', 'i', ' '], .number, .lit [' ', 'm', 'i', 'n', 'u', 't', 'o']], .seqs [.lit ['h', 'a', 'i', ' '], .number, .lit [' ', 's', 'e', 'm', 'a', 'n', 'a']], .seqs [.lit ['e', 'n', ' '], .number, .lit [' ', 'm', 'i', 'n', 'u', 't', 'o']], .seqs [.lit ['e', 'n', ' '], .number, .lit [' ', 's', 'e', 'm', 'a', 'n', 'a']], .seqs [.lit ['h', 'a', 'i', ' '], .number, .lit [' ', 'h', 'o', 'r', 'a', 's']], .seqs [.lit ['h', 'a', 'i', ' '], .number, .lit [' ', 'm', 'e', 's', 'e', 's']], .seqs [.lit ['e', 'n', ' '], .number, .lit [' ', 'h', 'o', 'r', 'a', 's']], .seqs [.lit ['e', 'n', ' '], .number, .lit [' ', 'm', 'e', 's', 'e', 's']], .seqs [.lit ['h', 'a', 'i', ' '], .number, .lit [' ', 'a', 'n', 'o', 's']], .seqs [.lit ['h', 'a', 'i', ' '], .number, .lit [' ', 'd', 'i', 'a', 's']], .seqs [.lit ['h', 'a', 'i', ' '], .number, .lit [' ', 'h', 'o', 'r', 'a']], .seqs [.lit ['e', 'n', ' '], .number, .lit [' ', 'a', 'n', 'o', 's']], .seqs [.lit ['e', 'n', ' '], .number, .lit [' ', 'd', 'i', 'a', 's']], .seqs [.lit ['e', 'n', ' '], .number, .lit [' ', 'h', 'o', 'r', 'a']], .seqs [.lit ['h', 'a', 'i', ' '], .number, .lit [' ', 'a', 'n', 'o']], .seqs [.lit ['h', 'a', 'i', ' '], .number, .lit [' ', 'd', 'i', 'a']], .seqs [.lit ['h', 'a', 'i', ' '], .number, .lit [' ', 'm', 'e', 's']], .seqs [.lit ['h', 'a', 'i', ' '], .number, .lit [' ', 'm', 'i', 'n']], .seqs [.lit ['h', 'a', 'i', ' '], .number, .lit [' ', 's', 'e', 'm']], .seqs [.lit ['e', 'n', ' '], .number, .lit [' ', 'a', 'n', 'o']], .seqs [.lit ['e', 'n', ' '], .number, .lit [' ', 'd', 'i', 'a']], .seqs [.lit ['e', 'n', ' '], .number, .lit [' ', 'm', 'e', 's']], .seqs [.lit ['e', 'n', ' '], .number, .lit [' ', 'm', 'i', 'n']], .seqs [.lit ['e', 'n', ' '], .number, .lit [' ', 's', 'e', 'm']], .seqs [.lit ['h', 'a', 'i', ' '], .number, .lit [' ', 'a']], .seqs [.lit ['h', 'a', 'i', ' '], .number, .lit [' ', 'd']], .seqs [.lit ['h', 'a', 'i', ' '], .number, .lit [' ', 'h']], .seqs [.lit ['h', 'a', 'i', ' '], .number, .lit [' ', 'm']], .seqs [.lit ['h', 'a', 'i', ' '], .number, .lit [' ', 's']], .seqs [.lit ['e', 'n', ' '], .number, .lit [' ', 'a']], .seqs [.lit ['e', 'n', ' '], .number, .lit [' ', 'd']], .seqs [.lit ['e', 'n', ' '], .number, .lit [' ', 'h']], .seqs [.lit ['e', 'n', ' '], .number, .lit [' ', 'm']], .seqs [.lit ['e', 'n', ' '], .number, .lit [' ', 's']]]), .eos]),
  knownWords :=
   [['a', ' ', 'p', 'r', 'o', 'x', 'i', 'm', 'a', ' ', 's', 'e', 'm', 'a', 'n', 'a'], ['a', ' ', 's', 'e', 'm', 'a', 'n', 'a', ' ', 'p', 'a', 's', 'a', 'd', 'a'], ['o', ' ', 'p', 'r', 'o', 'x', 'i', 'm', 'o', ' ', 'a', 'n', 'o'], ['o', ' ', 'p', 'r', 'o', 'x', 'i', 'm', 'o', ' ', 'm', 'e', 's'], ['n', 'e', 's', 't', 'e', ' ', 'm', 'i', 'n', 'u', 't', 'o'], ['o', ' ', 'a', 'n', 'o', ' ', 'p', 'a', 's', 'a', 'd', 'o'], ['o', ' ', 'm', 'e', 's', ' ', 'p', 'a', 's', 'a', 'd', 'o'], ['s', 'e', 'g', 'u', 'i', 'n', 't', 'e', ' ', 'a', 'n', 'o'], ['s', 'e', 'm', ' ', 's', 'e', 'g', 'u', 'i', 'n', 't', 'e'], ['e', 's', 't', 'a', ' ', 's', 'e', 'm', 'a', 'n', 'a'], ['a', 'n', 'o', ' ', 'p', 'a', 's', 'a', 'd', 'o'], ['m', ' ', 's', 'e', 'g', 'u', 'i', 'n', 't', 'e'], ['n', 'e', 's', 't', 'a', ' ', 'h', 'o', 'r', 'a'], ['s', 'e', 'm', ' ', 'p', 'a', 's', 'a', 'd', 'a'], ['d', 'e', 'c', 'e', 'm', 'b', 'r', 'o'], ['e', 's', 't', 'a', ' ', 's', 'e', 'm'], ['e', 's', 't', 'e', ' ', 'a', 'n', 'o'], ['e', 's', 't', 'e', ' ', 'm', 'e', 's'], ['f', 'e', 'b', 'r', 'e', 'i', 'r', 'o'], ['m', ' ', 'p', 'a', 's', 'a', 'd', 'o'], ['m', 'e', 'r', 'c', 'o', 'r', 'e', 's'], ['n', 'o', 'v', 'e', 'm', 'b', 'r', 'o'], ['s', 'e', 't', 'e', 'm', 'b', 'r', 'o'], ['d', 'o', 'm', 'i', 'n', 'g', 'o'], ['o', 'u', 't', 'u', 'b', 'r', 'o'], ['s', 'e', 'g', 'u', 'n', 'd', 'o'], ['x', 'a', 'n', 'e', 'i', 'r', 'o'], ['a', 'g', 'o', 's', 't', 'o'], ['e', 's', 't', 'e', ' ', 'm'], ['m', 'a', 'r', 't', 'e', 's'], ['m', 'i', 'n', 'u', 't', 'o'], ['s', 'a', 'b', 'a', 'd', 'o'], ['s', 'e', 'm', 'a', 'n', 'a'], ['v', 'e', 'n', 'r', 'e', 's'], ['a', 'b', 'r', 'i', 'l'], ['a', 'g', 'o', 'r', 'a'], ['m', 'a', 'r', 'z', 'o'], ['x', 'o', 'v', 'e', 's'], ['x', 'u', 'l', 'l', 'o'], ['h', 'o', 'r', 'a'], ['h', 'o', 'x', 'e'], ['l', 'u', 'n', 's'], ['m', 'a', 'i', 'o'], ['m', 'a', 'n', 'a'], ['o', 'n', 't', 'e'], ['x', 'u', 'n', 'o'], ['a', 'b', 'r'], ['a', 'g', 'o'], ['a', 'n', 'o'], ['d', 'e', 'c'], ['d', 'i', 'a'], ['d', 'o', 'm'], ['f', 'e', 'b'], ['g', 'm', 't'], ['m', 'a', 'r'], ['m', 'e', 'r'], ['m', 'e', 's'], ['m', 'i', 'n'], ['n', 'o', 'v'], ['o', 'u', 't'], ['s', 'a', 'b'], ['s', 'e', 'm'], ['s', 'e', 't'], ['u', 't', 'c'], ['v', 'e', 'n'], ['x', 'a', 'n'], ['x', 'o', 'v'], ['x', 'u', 'l'], ['a', 'm'], ['p', 'm'], [' '], ['\''], ['+'], [','], ['-'], ['.'], ['/'], [':'], [';'], ['@'], ['['], [']'], ['a'], ['d'], ['h'], ['m'], ['s'], ['z'], ['|']] }

/-- internal/data/gsw.go: `gsw_Locale`. -/
def gswLang : LangData := { gswDict with
  knownWords :=
   [['a', 'm', ' ', 'v', 'o', 'r', 'm', 'i', 't', 't', 'a', 'g'], ['a', 'm', ' ', 'n', 'a', 'm', 'i', 't', 't', 'a', 'g'], ['t', 'h', 'i', 's', ' ', 'm', 'i', 'n', 'u', 't', 'e'], ['l', 'a', 's', 't', ' ', 'm', 'o', 'n', 't', 'h'], ['n', 'e', 'x', 't', ' ', 'm', 'o', 'n', 't', 'h'], ['t', 'h', 'i', 's', ' ', 'm', 'o', 'n', 't', 'h'], ['d', 'u', 'n', 's', 'c', 'h', 't', 'i', 'g'], ['l', 'a', 's', 't', ' ', 'w', 'e', 'e', 'k'], ['l', 'a', 's', 't', ' ', 'y', 'e', 'a', 'r'], ['n', 'e', 'x', 't', ' ', 'w', 'e', 'e', 'k'], ['n', 'e', 'x', 't', ' ', 'y', 'e', 'a', 'r'], ['s', 'a', 'm', 's', 'c', 'h', 't', 'i', 'g'], ['s', 'e', 'p', 't', 'a', 'm', 'b', 'e', 'r'], ['t', 'h', 'i', 's', ' ', 'h', 'o', 'u', 'r'], ['t', 'h', 'i', 's', ' ', 'w', 'e', 'e', 'k'], ['t', 'h', 'i', 's', ' ', 'y', 'e', 'a', 'r'], ['v', 'o', 'r', 'm', 'i', 't', 't', 'a', 'g'], ['z', 'i', 'i', 's', 'c', 'h', 't', 'i', 'g'], ['a', 'u', 'g', 'u', 's', 'c', 'h', 't'], ['d', 'e', 'z', 'a', 'm', 'b', 'e', 'r'], ['g', 'e', 's', 'c', 'h', 't', 'e', 'r'], ['m', 'i', 't', 't', 'w', 'u', 'c', 'h'], ['n', 'a', 'm', 'i', 't', 't', 'a', 'g'], ['n', 'o', 'v', 'a', 'm', 'b', 'e', 'r'], ['o', 'k', 't', 'o', 'o', 'b', 'e', 'r'], ['f', 'e', 'b', 'r', 'u', 'a', 'r'], ['f', 'r', 'i', 'i', 't', 'i', 'g'], ['m', 'a', 'a', 'n', 't', 'i', 'g'], ['m', 'i', 'n', 'u', 'u', 't', 'e'], ['s', 'c', 'h', 't', 'u', 'n', 'd'], ['s', 'e', 'k', 'u', 'n', 'd', 'e'], ['s', 'u', 'n', 'n', 't', 'i', 'g'], ['j', 'a', 'n', 'u', 'a', 'r'], ['a', 'p', 'r', 'i', 'l'], ['m', 'o', 'n', 'e', 't'], ['m', 'o', 'o', 'r', 'n'], ['w', 'u', 'c', 'h', 'e'], ['j', 'a', 'a', 'r'], ['j', 'u', 'l', 'i'], ['j', 'u', 'n', 'i'], ['m', 'a', 'r', 'z'], ['v', 'o', 'r', 'm'], ['a', 'p', 'r'], ['a', 'u', 'g'], ['d', 'e', 'z'], ['f', 'e', 'b'], ['g', 'm', 't'], ['h', 'u', 't'], ['j', 'a', 'n'], ['j', 'u', 'l'], ['j', 'u', 'n'], ['m', 'a', 'i'], ['m', 'a', 'r'], ['n', 'a', 'm'], ['n', 'o', 'v'], ['n', 'o', 'w'], ['o', 'k', 't'], ['s', 'e', 'p'], ['t', 'a', 'g'], ['u', 't', 'c'], ['a', 'm'], ['d', 'u'], ['f', 'r'], ['m', 'a'], ['m', 'i'], ['p', 'm'], ['s', 'a'], ['s', 'u'], ['z', 'i'], [' '], ['\''], ['+'], [','], ['-'], ['.'], ['/'], [':'], [';'], ['@'], ['['], [']'], ['z'], ['|']] }

/-- internal/data/gsw.go: `gsw_FR_Locale`. -/
def gsw_FRLang : LangData := gsw_FRDict

/-- internal/data/gsw.go: `gsw_LI_Locale`. -/
def gsw_LILang : LangData := gsw_LIDict

/-- internal/data/gu.go: `gu_Locale`. -/
def guLang : LangData := { guDict with
  relativeRegexes :=
   [(.seqs [.grp 1 (.number), .lit [' ', 'અ', 'ઠ', 'વ', 'ા', 'ડ', 'િ', 'ય', 'ા', ' ', 'પ', 'હ', 'લ', 'ા']], [.ref 1, .lit [' ', 'w', 'e', 'e', 'k', ' ', 'a', 'g', 'o']]),
    (.seqs [.grp 1 (.number), .lit [' ', 'અ', 'ઠ', 'વ', 'ા', 'ડ', 'િ', 'ય', 'ા', 'મ', 'ા']], [.lit ['i', 'n', ' '], .ref 1, .lit [' ', 'w', 'e', 'e', 'k']]),
    (.seqs [.grp 1 (.number), .lit [' ', 'મ', 'હ', 'િ', 'ન', 'ા', ' ', 'પ', 'હ', 'લ', 'ા']], [.ref 1, .lit [' ', 'm', 'o', 'n', 't', 'h', ' ', 'a', 'g', 'o']]),
    (.seqs [.grp 1 (.number), .lit [' ', 'મ', 'િ', 'ન', 'િ', 'ટ', ' ', 'પ', 'હ', 'લ', 'ા']], [.ref 1, .lit [' ', 'm', 'i', 'n', 'u', 't', 'e', ' ', 'a', 'g', 'o']]),
    (.seqs [.grp 1 (.number), .lit [' ', 'ક', 'લ', 'ા', 'ક', ' ', 'પ', 'હ', 'લ', 'ા']], [.ref 1, .lit [' ', 'h', 'o', 'u', 'r', ' ', 'a', 'g', 'o']]),
    (.seqs [.grp 1 (.number), .lit [' ', 'દ', 'િ', 'વ', 'સ', ' ', 'પ', 'હ', 'લ', 'ા']], [.ref 1, .lit [' ', 'd', 'a', 'y', ' ', 'a', 'g', 'o']]),
    (.seqs [.grp 1 (.number), .lit [' ', 'વ', 'ર', 'ષ', ' ', 'પ', 'હ', 'લ', 'ા']], [.ref 1, .lit [' ', 'y', 'e', 'a', 'r', ' ', 'a', 'g', 'o']]),
    (.seqs [.grp 1 (.number), .lit [' ', 'સ', 'ક', 'ડ', ' ', 'પ', 'હ', 'લ', 'ા']], [.ref 1, .lit [' ', 's', 'e', 'c', 'o', 'n', 'd', ' ', 'a', 'g', 'o']]),
    (.seqs [.grp 1 (.number), .lit [' ', 'અ', 'ઠ', ' ', 'પ', 'હ', 'લ', 'ા']], [.ref 1, .lit [' ', 'w', 'e', 'e', 'k', ' ', 'a', 'g', 'o']]),
    (.seqs [.grp 1 (.number), .lit [' ', 'મ', 'હ', 'િ', 'ન', 'ા', 'મ', 'ા']], [.lit ['i', 'n', ' '], .ref 1, .lit [' ', 'm', 'o', 'n', 't', 'h']]),
    (.seqs [.grp 1 (.number), .lit [' ', 'મ', 'િ', 'ન', 'િ', 'ટ', 'મ', 'ા']], [.lit ['i', 'n', ' '], .ref 1, .lit [' ', 'm', 'i', 'n', 'u', 't', 'e']]),
    (.seqs [.grp 1 (.number), .lit [' ', 'ક', 'લ', 'ા', 'ક', 'મ', 'ા']], [.lit ['i', 'n', ' '], .ref 1, .lit [' ', 'h', 'o', 'u', 'r']]),
    (.seqs [.grp 1 (.number), .lit [' ', 'દ', 'િ', 'વ', 'સ', 'મ', 'ા']], [.lit ['i', 'n', ' '], .ref 1, .lit [' ', 'd', 'a', 'y']]),
    (.seqs [.grp 1 (.number), .lit [' ', 'અ', 'ઠ', ' ', 'મ', 'ા']], [.lit ['i', 'n', ' '], .ref 1, .lit [' ', 'w', 'e', 'e', 'k']]),
    (.seqs [.grp 1 (.number), .lit [' ', 'વ', 'ર', 'ષ', 'મ', 'ા']], [.lit ['i', 'n', ' '], .ref 1, .lit [' ', 'y', 'e', 'a', 'r']]),
    (.seqs [.grp 1 (.number), .lit [' ', 'સ', 'ક', 'ડ', 'મ', 'ા']], [.lit ['i', 'n', ' '], .ref 1, .lit [' ', 's', 'e', 'c', 'o', 'n', 'd']])],
  rxCombined := some (.seqs [.grp 1 (.alts [.bos, .cls true [.letter, .mark, .digit], .lit ['_']]), .grp 2 (.alts [.seqs [.number, .lit [' ', 'અ', 'ઠ', 'વ', 'ા', 'ડ', 'િ', 'ય', 'ા', ' ', 'પ', 'હ', 'લ', 'ા']], .seqs [.number, .lit [' ', 'અ', 'ઠ', 'વ', 'ા', 'ડ', 'િ', 'ય', 'ા', 'મ', 'ા']], .seqs [.number, .lit [' ', 'મ', 'હ', 'િ', 'ન', 'ા', ' ', 'પ', 'હ', 'લ', 'ા']], .seqs [.number, .lit [' ', 'મ', 'િ', 'ન', 'િ', 'ટ', ' ', 'પ', 'હ', 'લ', 'ા']], .seqs [.number, .lit [' ', 'ક', 'લ', 'ા', 'ક', ' ', 'પ', 'હ', 'લ', 'ા']], .seqs [.number, .lit [' ', 'દ', 'િ', 'વ', 'સ', ' ', 'પ', 'હ', 'લ', 'ા']], .seqs [.number, .lit [' ', 'વ', 'ર', 'ષ', ' ', 'પ', 'હ', 'લ', 'ા']], .seqs [.number, .lit [' ', 'સ', 'ક', 'ડ', ' ', 'પ', 'હ', 'લ', 'ા']], .seqs [.number, .lit [' ', 'અ', 'ઠ', ' ', 'પ', 'હ', 'લ', 'ા']], .seqs [.number, .lit [' ', 'મ', 'હ', 'િ', 'ન', 'ા', 'મ', 'ા']], .seqs [.number, .lit [' ', 'મ', 'િ', 'ન', 'િ', 'ટ', 'મ', 'ા']], .seqs [.number, .lit [' ', 'ક', 'લ', 'ા', 'ક', 'મ', 'ા']], .seqs [.number, .lit [' ', 'દ', 'િ', 'વ', 'સ', 'મ', 'ા']], .seqs [.number, .lit [' ', 'અ', 'ઠ', ' ', 'મ', 'ા']], .seqs [.number, .lit [' ', 'વ', 'ર', 'ષ', 'મ', 'ા']], .seqs [.number, .lit [' ', 'સ', 'ક', 'ડ', 'મ', 'ા']]]), .grp 3 (.alts [.eos, .cls true [.letter, .mark, .digit], .lit ['_']])], 3),
  rxExact := some (.seqs [.bos, .grp 1 (.alts [.seqs [.number, .lit [' ', 'અ', 'ઠ', 'વ', 'ા', 'ડ', 'િ', 'ય', 'ા', ' ', 'પ', 'હ', 'લ', 'ા']], .seqs [.number, .lit [' ', 'અ', 'ઠ', 'વ', 'ા', 'ડ', 'િ', 'ય', 'ા', 'મ', 'ા']], .seqs [.number, .lit [' ', 'મ', 'હ', 'િ', 'ન', 'ા', ' ', 'પ', 'હ', 'લ', 'ા']], .seqs [.number, .lit [' ', 'મ', 'િ', 'ન', 'િ', 'ટ', ' ', 'પ', 'હ', 'લ', 'ા']], .seqs [.number, .lit [' ', 'ક', 'લ', 'ા', 'ક', ' ', 'પ', 'હ', 'લ', 'ા']], .seqs [.number, .lit [' ', 'દ', 'િ', 'વ', 'સ', ' ', 'પ', 'હ', 'લ', 'ા']], .seqs [.number, .lit [' ', 'વ', 'ર', 'ષ', ' ', 'પ', 'હ', 'લ', 'ા']], .seqs [.number, .lit [' ', 'સ', 'ક', 'ડ', ' ', 'પ', 'હ', 'લ', 'ા']], .seqs [.number, .lit [' ', 'અ', 'ઠ', ' ', 'પ', 'હ', 'લ', 'ા']], .seqs [.number, .lit [' ', 'મ', 'હ', 'િ', 'ન', 'ા', 'મ', 'ા']], .seqs [.number, .lit [' ', 'મ', 'િ', 'ન', 'િ', 'ટ', 'મ', 'ા']], .seqs [.number, .lit [' ', 'ક', 'લ', 'ા', 'ક', 'મ', 'ા']], .seqs [.number, .lit [' ', 'દ', 'િ', 'વ', 'સ', 'મ', 'ા']], .seqs [.number, .lit [' ', 'અ', 'ઠ', ' ', 'મ', 'ા']], .seqs [.number, .lit [' ', 'વ', 'ર', 'ષ', 'મ', 'ા']], .seqs [.number, .lit [' ', 'સ', 'ક', 'ડ', 'મ', 'ા']]]), .eos]),
  knownWords :=
   [['આ', 'વ', 'ત', 'ા', ' ', 'અ', 'ઠ', 'વ', 'ા', 'ડ', 'િ', 'ય'], ['ગ', 'ય', 'ા', ' ', 'અ', 'ઠ', 'વ', 'ા', 'ડ', 'િ', 'ય'], ['આ', ' ', 'અ', 'ઠ', 'વ', 'ા', 'ડ', 'િ', 'ય'], ['આ', 'વ', 'ત', 'ા', ' ', 'મ', 'હ', 'િ', 'ન'], ['આ', 'વ', 'ત', 'ા', ' ', 'વ', 'ર', 'ષ'], ['ગ', 'ય', 'ા', ' ', 'મ', 'હ', 'િ', 'ન'], ['અ', 'ઠ', 'વ', 'ા', 'ડ', 'િ', 'ય'], ['આ', ' ', 'મ', 'િ', 'ન', 'િ', 'ટ'], ['આ', 'વ', 'ત', 'ી', 'ક', 'ા', 'લ'], ['ગ', 'ય', 'ા', ' ', 'વ', 'ર', 'ષ'], ['જ', 'ા', 'ન', 'ય', 'આ', 'ર', 'ી'], ['આ', ' ', 'ક', 'લ', 'ા', 'ક'], ['આ', ' ', 'મ', 'હ', 'િ', 'ન'], ['ઑ', 'ક', 'ટ', 'ો', 'બ', 'ર'], ['ડ', 'િ', 'સ', 'મ', 'બ', 'ર'], ['ફ', 'બ', 'ર', 'આ', 'ર', 'ી'], ['મ', 'ગ', 'ળ', 'વ', 'ા', 'ર'], ['ર', 'વ', 'િ', 'વ', 'ા', 'ર'], ['શ', 'ક', 'ર', 'વ', 'ા', 'ર'], ['શ', 'ન', 'િ', 'વ', 'ા', 'ર'], ['સ', 'પ', 'ટ', 'મ', 'બ', 'ર'], ['સ', 'ો', 'મ', 'વ', 'ા', 'ર'], ['આ', ' ', 'વ', 'ર', 'ષ'], ['એ', 'પ', 'ર', 'િ', 'લ'], ['ગ', 'ઈ', 'ક', 'ા', 'લ'], ['ગ', 'ર', 'વ', 'ા', 'ર'], ['ન', 'વ', 'મ', 'બ', 'ર'], ['બ', 'ધ', 'વ', 'ા', 'ર'], ['મ', 'હ', 'િ', 'ન', 'ો'], ['મ', 'િ', 'ન', 'િ', 'ટ'], ['ઑ', 'ક', 'ટ', 'ો'], ['ઑ', 'ગ', 'સ', 'ટ'], ['ક', 'લ', 'ા', 'ક'], ['જ', 'લ', 'ા', 'ઈ'], ['જ', 'ા', 'ન', 'ય'], ['દ', 'િ', 'વ', 'સ'], ['મ', 'ા', 'ર', 'ચ'], ['સ', 'ક', 'ન', 'ડ'], ['હ', 'મ', 'ણ', 'ા'], ['g', 'm', 't'], ['u', 't', 'c'], ['ડ', 'િ', 'સ'], ['ફ', 'બ', 'ર'], ['મ', 'ગ', 'ળ'], ['ર', 'વ', 'િ'], ['વ', 'ર', 'ષ'], ['શ', 'ક', 'ર'], ['શ', 'ન', 'િ'], ['સ', 'પ', 'ટ'], ['સ', 'ો', 'મ'], ['a', 'm'], ['p', 'm'], ['અ', 'ઠ'], ['આ', 'જ'], ['ગ', 'ર'], ['જ', 'ન'], ['ન', 'વ'], ['બ', 'ધ'], ['મ', 'િ'], [' '], ['\''], ['+'], [','], ['-'], ['.'], ['/'], [':'], [';'], ['@'], ['['], [']'], ['z'], ['|'], ['ક'], ['મ'], ['વ'], ['સ']] }

/-- internal/data/guz.go: `guz_Locale`. -/
def guzLang : LangData := { guzDict with
  knownWords :=
   [['t', 'h', 'i', 's', ' ', 'm', 'i', 'n', 'u', 't', 'e'], ['l', 'a', 's', 't', ' ', 'm', 'o', 'n', 't', 'h'], ['n', 'e', 'x', 't', ' ', 'm', 'o', 'n', 't', 'h'], ['t', 'h', 'i', 's', ' ', 'm', 'o', 'n', 't', 'h'], ['c', 'h', 'u', 'm', 'a', 'p', 'i', 'r', 'i'], ['c', 'h', 'u', 'm', 'a', 't', 'a', 'n', 'o'], ['c', 'h', 'u', 'm', 'a', 't', 'a', 't', 'o'], ['l', 'a', 's', 't', ' ', 'w', 'e', 'e', 'k'], ['l', 'a', 's', 't', ' ', 'y', 'e', 'a', 'r'], ['n', 'e', 'x', 't', ' ', 'w', 'e', 'e', 'k'], ['n', 'e', 'x', 't', ' ', 'y', 'e', 'a', 'r'], ['o', 'm', 'o', 't', 'i', 'e', 'n', 'y', 'i'], ['t', 'h', 'i', 's', ' ', 'h', 'o', 'u', 'r'], ['t', 'h', 'i', 's', ' ', 'w', 'e', 'e', 'k'], ['t', 'h', 'i', 's', ' ', 'y', 'e', 'a', 'r'], ['c', 'h', 'a', 'n', 'u', 'a', 'r', 'i'], ['c', 'h', 'u', 'm', 'a', 'i', 'n', 'e'], ['e', 's', 'e', 'k', 'e', 'n', 'd', 'i'], ['f', 'e', 'b', 'u', 'r', 'a', 'r', 'i'], ['o', 'm', 'o', 'k', 'u', 'b', 'i', 'o'], ['s', 'e', 'p', 't', 'e', 'm', 'b', 'a'], ['a', 'p', 'i', 'r', 'i', 'r', 'i'], ['a', 'r', 'a', 'm', 'i', 's', 'i'], ['d', 'i', 's', 'e', 'm', 'b', 'a'], ['e', 'd', 'a', 'k', 'i', 'k', 'a'], ['e', 's', 'a', 'b', 'a', 't', 'o'], ['n', 'o', 'b', 'e', 'm', 'b', 'a'], ['o', 'k', 'i', 't', 'o', 'b', 'a'], ['a', 'g', 'o', 's', 't', 'i'], ['c', 'h', 'u', 'l', 'a', 'i'], ['i', 'c', 'h', 'u', 'm', 'a'], ['m', 'a', 'm', 'b', 'i', 'a'], ['o', 'm', 'w', 'a', 'k', 'a'], ['r', 'i', 't', 'u', 'k', 'o'], ['i', 'g', 'o', 'r', 'o'], ['m', 'a', 'c', 'h', 'i'], ['e', 'n', 's', 'a'], ['j', 'u', 'n', 'i'], ['r', 'e', 'r', 'o'], ['a', 'g', 't'], ['a', 'p', 'r'], ['a', 'r', 's'], ['c', 'a', 'n'], ['c', 'm', 'n'], ['c', 'm', 't'], ['c', 'p', 'r'], ['c', 't', 't'], ['c', 'u', 'l'], ['d', 'i', 's'], ['e', 's', 't'], ['f', 'e', 'b'], ['g', 'm', 't'], ['i', 'c', 'm'], ['j', 'u', 'n'], ['m', 'a', 'c'], ['m', 'e', 'i'], ['m', 'o', 'g'], ['n', 'o', 'b'], ['n', 'o', 'w'], ['o', 'k', 't'], ['s', 'e', 'p'], ['u', 't', 'c'], ['a', 'm'], ['m', 'a'], ['m', 'o'], ['p', 'm'], [' '], ['\''], ['+'], [','], ['-'], ['.'], ['/'], [':'], [';'], ['@'], ['['], [']'], ['z'], ['|']] }

/-- internal/data/gv.go: `gv_Locale`. -/
def gvLang : LangData := { gvDict with
  knownWords :=
   [['t', 'o', 's', 'h', 'i', 'a', 'g', 'h', 't', '-', 'a', 'r', 'r', 'e', 'e'], ['m', 'e', 'e', ' ', 'n', 'y', ' ', 'n', 'o', 'l', 'l', 'i', 'c', 'k'], ['j', 'e', 'r', 'r', 'e', 'y', '-', 'f', 'o', 'u', 'y', 'i', 'r'], ['j', 'e', 'r', 'r', 'e', 'y', '-', 'g', 'e', 'u', 'r', 'e', 'e'], ['j', 'e', 'r', 'r', 'e', 'y', '-', 's', 'o', 'u', 'r', 'e', 'e'], ['m', 'e', 'a', 'n', '-', 'f', 'o', 'u', 'y', 'i', 'r'], ['m', 'e', 'a', 'n', '-', 's', 'o', 'u', 'r', 'e', 'e'], ['t', 'h', 'i', 's', ' ', 'm', 'i', 'n', 'u', 't', 'e'], ['l', 'a', 's', 't', ' ', 'm', 'o', 'n', 't', 'h'], ['m', 'e', 'e', ' ', 'h', 'o', 'u', 'n', 'e', 'y'], ['n', 'e', 'x', 't', ' ', 'm', 'o', 'n', 't', 'h'], ['t', 'h', 'i', 's', ' ', 'm', 'o', 'n', 't', 'h'], ['l', 'a', 's', 't', ' ', 'w', 'e', 'e', 'k'], ['l', 'a', 's', 't', ' ', 'y', 'e', 'a', 'r'], ['l', 'u', 'a', 'n', 'i', 's', 't', 'y', 'n'], ['m', '-', 'n', 'o', 'l', 'l', 'i', 'c', 'k'], ['n', 'e', 'x', 't', ' ', 'w', 'e', 'e', 'k'], ['n', 'e', 'x', 't', ' ', 'y', 'e', 'a', 'r'], ['t', 'h', 'i', 's', ' ', 'h', 'o', 'u', 'r'], ['t', 'h', 'i', 's', ' ', 'w', 'e', 'e', 'k'], ['t', 'h', 'i', 's', ' ', 'y', 'e', 'a', 'r'], ['y', 'e', 's', 't', 'e', 'r', 'd', 'a', 'y'], ['j', '-', 'f', 'o', 'u', 'y', 'i', 'r'], ['j', '-', 's', 'o', 'u', 'r', 'e', 'e'], ['j', 'e', 'd', 'o', 'o', 'n', 'e', 'e'], ['j', 'e', 'h', 'e', 'i', 'n', 'e', 'y'], ['m', '-', 'f', 'o', 'u', 'y', 'i', 'r'], ['m', '-', 'h', 'o', 'u', 'n', 'e', 'y'], ['m', '-', 's', 'o', 'u', 'r', 'e', 'e'], ['t', 'o', 'm', 'o', 'r', 'r', 'o', 'w'], ['b', 'o', 'a', 'l', 'd', 'y', 'n'], ['j', 'e', 'l', 'h', 'e', 'i', 'n'], ['j', 'e', 'm', 'a', 'y', 'r', 't'], ['j', 'e', 'r', 'c', 'e', 'a', 'n'], ['j', 'e', 'r', 'd', 'e', 'i', 'n'], ['t', '-', 'a', 'r', 'r', 'e', 'e'], ['a', 'v', 'e', 'r', 'i', 'l'], ['a', 'v', 'r', 'r', 'i', 'l'], ['j', '-', 'g', 'u', 'e', 'r'], ['j', 'e', 's', 'a', 'r', 'n'], ['m', 'a', 'y', 'r', 'n', 't'], ['m', 'i', 'n', 'u', 't', 'e'], ['s', 'e', 'c', 'o', 'n', 'd'], ['m', 'o', 'n', 't', 'h'], ['t', 'o', 'd', 'a', 'y'], ['h', 'o', 'u', 'r'], ['j', 'e', 'r', 'c'], ['j', 'e', 'r', 'd'], ['w', 'e', 'e', 'k'], ['y', 'e', 'a', 'r'], ['d', 'a', 'y'], ['g', 'm', 't'], ['j', 'e', 'd'], ['j', 'e', 'h'], ['j', 'e', 'l'], ['j', 'e', 'm'], ['j', 'e', 's'], ['n', 'o', 'w'], ['u', 't', 'c'], ['a', 'm'], ['p', 'm'], [' '], ['\''], ['+'], [','], ['-'], ['.'], ['/'], [':'], [';'], ['@'], ['['], [']'], ['z'], ['|']] }

/-- internal/data/ha.go: `ha_Locale`. -/
def haLang : LangData := { haDict with
  knownWords :=
   [['t', 'h', 'i', 's', ' ', 'm', 'i', 'n', 'u', 't', 'e'], ['l', 'a', 's', 't', ' ', 'm', 'o', 'n', 't', 'h'], ['n', 'e', 'x', 't', ' ', 'm', 'o', 'n', 't', 'h'], ['t', 'h', 'i', 's', ' ', 'm', 'o', 'n', 't', 'h'], ['f', 'a', 'b', 'u', 'r', 'a', 'i', 'r', 'u'], ['l', 'a', 's', 't', ' ', 'w', 'e', 'e', 'k'], ['l', 'a', 's', 't', ' ', 'y', 'e', 'a', 'r'], ['n', 'e', 'x', 't', ' ', 'w', 'e', 'e', 'k'], ['n', 'e', 'x', 't', ' ', 'y', 'e', 'a', 'r'], ['t', 'h', 'i', 's', ' ', 'h', 'o', 'u', 'r'], ['t', 'h', 'i', 's', ' ', 'w', 'e', 'e', 'k'], ['t', 'h', 'i', 's', ' ', 'y', 'e', 'a', 'r'], ['a', 'f', 'i', 'r', 'i', 'l', 'u'], ['a', 'l', 'h', 'a', 'm', 'i', 's'], ['d', 'i', 's', 'a', 'm', 'b', 'a'], ['j', 'a', 'n', 'a', 'i', 'r', 'u'], ['j', 'u', 'm', 'm', 'a', '\'', 'a'], ['l', 'i', 't', 'i', 'n', 'i', 'n'], ['n', 'u', 'w', 'a', 'm', 'b', 'a'], ['s', 'a', 't', 'u', 'm', 'b', 'a'], ['s', 'h', 'e', 'k', 'a', 'r', 'a'], ['a', 'g', 'u', 's', 't', 'a'], ['a', 's', 'a', 'b', 'a', 'r'], ['d', 'a', 'ƙ', 'i', 'ƙ', 'a'], ['l', 'a', 'h', 'a', 'd', 'i'], ['l', 'a', 'r', 'a', 'b', 'a'], ['o', 'k', 't', 'o', 'b', 'a'], ['t', 'a', 'l', 'a', 't', 'a'], ['k', 'w', 'a', 'n', 'a'], ['m', 'a', 'r', 'i', 's'], ['m', 'i', 'n', 't', 'i'], ['g', 'o', 'b', 'e'], ['j', 'i', 'y', 'a'], ['m', 'a', 'k', 'o'], ['m', 'a', 'y', 'u'], ['w', 'a', 't', 'a'], ['y', 'u', 'l', 'i'], ['y', 'u', 'n', 'i'], ['a', 'f', 'i'], ['a', 'g', 'u'], ['a', 'l', 'h'], ['a', 's', 'a'], ['a', 'w', 'a'], ['d', 'i', 's'], ['f', 'a', 'b'], ['g', 'm', 't'], ['j', 'a', 'n'], ['j', 'u', 'm'], ['l', 'a', 'h'], ['l', 'a', 'r'], ['l', 'i', 't'], ['m', 'a', 'r'], ['m', 'a', 'y'], ['n', 'o', 'w'], ['n', 'u', 'w'], ['o', 'k', 't'], ['s', 'a', 't'], ['t', 'a', 'l'], ['u', 't', 'c'], ['y', 'a', 'u'], ['y', 'u', 'l'], ['y', 'u', 'n'], ['a', 'm'], ['p', 'm'], [' '], ['\''], ['+'], [','], ['-'], ['.'], ['/'], [':'], [';'], ['@'], ['['], [']'], ['z'], ['|']] }

/-- internal/data/ha.go: `ha_GH_Locale`. -/
def ha_GHLang : LangData := ha_GHDict

/-- internal/data/ha.go: `ha_NE_Locale`. -/
def ha_NELang : LangData := ha_NEDict

/-- internal/data/haw.go: `haw_Locale`. -/
def hawLang : LangData := { hawDict with
  knownWords :=
   [['t', 'h', 'i', 's', ' ', 'm', 'i', 'n', 'u', 't', 'e'], ['k', 'e', 'p', 'a', 'k', 'e', 'm', 'a', 'p', 'a'], ['l', 'a', 's', 't', ' ', 'm', 'o', 'n', 't', 'h'], ['n', 'e', 'x', 't', ' ', 'm', 'o', 'n', 't', 'h'], ['t', 'h', 'i', 's', ' ', 'm', 'o', 'n', 't', 'h'], ['l', 'a', 's', 't', ' ', 'w', 'e', 'e', 'k'], ['l', 'a', 's', 't', ' ', 'y', 'e', 'a', 'r'], ['n', 'e', 'x', 't', ' ', 'w', 'e', 'e', 'k'], ['n', 'e', 'x', 't', ' ', 'y', 'e', 'a', 'r'], ['p', 'e', 'p', 'e', 'l', 'u', 'a', 'l', 'i'], ['t', 'h', 'i', 's', ' ', 'h', 'o', 'u', 'r'], ['t', 'h', 'i', 's', ' ', 'w', 'e', 'e', 'k'], ['t', 'h', 'i', 's', ' ', 'y', 'e', 'a', 'r'], ['y', 'e', 's', 't', 'e', 'r', 'd', 'a', 'y'], ['\'', 'a', 'p', 'e', 'l', 'i', 'l', 'a'], ['\'', 'o', 'k', 'a', 'k', 'o', 'p', 'a'], ['k', 'e', 'k', 'e', 'm', 'a', 'p', 'a'], ['n', 'o', 'w', 'e', 'm', 'a', 'p', 'a'], ['p', 'o', '\'', 'a', 'k', 'a', 'h', 'i'], ['p', 'o', '\'', 'a', 'k', 'o', 'l', 'u'], ['p', 'o', '\'', 'a', 'l', 'i', 'm', 'a'], ['t', 'o', 'm', 'o', 'r', 'r', 'o', 'w'], ['\'', 'a', 'u', 'k', 'a', 'k', 'e'], ['i', 'a', 'n', 'u', 'a', 'l', 'i'], ['p', 'o', '\'', 'a', 'l', 'u', 'a'], ['p', 'o', '\'', 'a', 'o', 'n', 'o'], ['l', 'a', 'p', 'u', 'l', 'e'], ['m', 'a', 'l', 'a', 'k', 'i'], ['m', 'i', 'n', 'u', 't', 'e'], ['p', 'o', '\'', 'a', 'h', 'a'], ['s', 'e', 'c', 'o', 'n', 'd'], ['i', 'u', 'l', 'a', 'i'], ['m', 'o', 'n', 't', 'h'], ['t', 'o', 'd', 'a', 'y'], ['h', 'o', 'u', 'r'], ['i', 'u', 'n', 'e'], ['w', 'e', 'e', 'k'], ['y', 'e', 'a', 'r'], ['\'', 'a', 'p'], ['\'', 'a', 'u'], ['\'', 'o', 'k'], ['d', 'a', 'y'], ['g', 'm', 't'], ['i', 'a', 'n'], ['i', 'u', 'l'], ['i', 'u', 'n'], ['k', 'e', 'k'], ['k', 'e', 'p'], ['m', 'a', 'l'], ['m', 'e', 'i'], ['n', 'o', 'w'], ['p', 'e', 'p'], ['u', 't', 'c'], ['a', 'm'], ['l', 'p'], ['p', '1'], ['p', '2'], ['p', '3'], ['p', '4'], ['p', '5'], ['p', '6'], ['p', 'm'], [' '], ['\''], ['+'], [','], ['-'], ['.'], ['/'], [':'], [';'], ['@'], ['['], [']'], ['z'], ['|']] }

/-- internal/data/he.go: `he_Locale`. -/
def heLang : LangData := { heDict with
  simplifications :=
   [(.seqs [.grp 1 (.alts [.bos, .noWord]), .lit ['ו', 'י', 'ו', 'ם'], .grp 2 (.alts [.eos, .noWord])], [.ref 1, .lit ['1', ' ', 'י', 'ו', 'ם'], .ref 2]),
    (.seqs [.grp 1 (.alts [.bos, .noWord]), .lit ['ו', 'ש', 'ב', 'ו', 'ע'], .grp 2 (.alts [.eos, .noWord])], [.ref 1, .lit ['1', ' ', 'ש', 'ב', 'ו', 'ע'], .ref 2]),
    (.seqs [.grp 1 (.alts [.bos, .noWord]), .lit ['ו', 'ח', 'ו', 'ד', 'ש'], .grp 2 (.alts [.eos, .noWord])], [.ref 1, .lit ['1', ' ', 'ח', 'ו', 'ד', 'ש'], .ref 2]),
    (.seqs [.grp 1 (.alts [.bos, .noWord]), .lit ['ו', 'ש', 'נ', 'ה'], .grp 2 (.alts [.eos, .noWord])], [.ref 1, .lit ['1', ' ', 'ש', 'נ', 'ה'], .ref 2]),
    (.seqs [.grp 1 (.alts [.bos, .noWord]), .lit ['ו'], .grp 2 (.plus (.cls false [.letter, .mark, .digit, .rng '_' '_'])), .grp 3 (.alts [.eos, .noWord])], [.ref 1, .ref 2, .ref 3]),
    (.seqs [.grp 1 (.alts [.bos, .noWord]), .lit ['ש', 'נ', 'ת', 'י'], .opt (.lit ['י']), .lit ['ם'], .grp 2 (.alts [.eos, .noWord])], [.ref 1, .lit ['2', ' ', 'ש', 'נ', 'י', 'ם'], .ref 2]),
    (.seqs [.grp 1 (.alts [.bos, .noWord]), .lit ['ח', 'ו', 'ד', 'ש', 'י', 'י', 'ם'], .grp 2 (.alts [.eos, .noWord])], [.ref 1, .lit ['2', ' ', 'ח', 'ו', 'ד', 'ש', 'י', 'ם'], .ref 2]),
    (.seqs [.grp 1 (.alts [.bos, .noWord]), .lit ['ש', 'ב', 'ו', 'ע', 'י'], .opt (.lit ['י']), .lit ['ם'], .grp 2 (.alts [.eos, .noWord])], [.ref 1, .lit ['2', ' ', 'ש', 'ב', 'ו', 'ע', 'ו', 'ת'], .ref 2]),
    (.seqs [.grp 1 (.alts [.bos, .noWord]), .lit ['י', 'ו', 'מ', 'י'], .opt (.lit ['י']), .lit ['ם'], .grp 2 (.alts [.eos, .noWord])], [.ref 1, .lit ['2', ' ', 'י', 'מ', 'י', 'ם'], .ref 2]),
    (.seqs [.grp 1 (.alts [.bos, .noWord]), .lit ['ש', 'ע', 'ת', 'י'], .opt (.lit ['י']), .lit ['ם'], .grp 2 (.alts [.eos, .noWord])], [.ref 1, .lit ['2', ' ', 'ש', 'ע', 'ו', 'ת'], .ref 2]),
    (.seqs [.grp 1 (.alts [.bos, .noWord]), .lit ['ש', 'ל', 'ש', 'ו', 'ם'], .grp 2 (.alts [.eos, .noWord])], [.ref 1, .lit ['2', ' ', 'י', 'מ', 'י', 'ם'], .ref 2]),
    (.seqs [.grp 1 (.alts [.bos, .noWord]), .lit ['מ', 'ח', 'ר'], .grp 2 (.alts [.eos, .noWord])], [.ref 1, .lit ['ב', 'ע', 'ו', 'ד', ' ', '1', ' ', 'י', 'ו', 'ם'], .ref 2]),
    (.seqs [.grp 1 (.alts [.bos, .noWord]), .lit ['א', 'ח', 'ר', ' ', 'ח', 'צ', 'ו', 'ת'], .grp 2 (.alts [.eos, .noWord])], [.ref 1, .lit ['a', 'm'], .ref 2]),
    (.seqs [.grp 1 (.alts [.bos, .noWord]), .lit ['ח', 'צ', 'ו', 'ת'], .grp 2 (.alts [.eos, .noWord])], [.ref 1, .lit ['1', '2', ' ', 'a', 'm'], .ref 2]),
    (.seqs [.grp 1 (.alts [.bos, .noWord]), .lit ['ל', 'פ', 'נ', 'ו', 'ת', ' ', 'ב', 'ו', 'ק', 'ר'], .grp 2 (.alts [.eos, .noWord])], [.ref 1, .lit ['a', 'm'], .ref 2]),
    (.seqs [.grp 1 (.alts [.bos, .noWord]), .lit ['ב', 'ב', 'ו', 'ק', 'ר'], .grp 2 (.alts [.eos, .noWord])], [.ref 1, .lit ['a', 'm'], .ref 2]),
    (.seqs [.grp 1 (.alts [.bos, .noWord]), .lit ['ב', 'צ', 'ה', 'ר', 'י'], .opt (.lit ['י']), .lit ['ם'], .grp 2 (.alts [.eos, .noWord])], [.ref 1, .lit ['p', 'm'], .ref 2]),
    (.seqs [.grp 1 (.alts [.bos, .noWord]), .lit ['א', 'ח', 'ר', 'י', ' '], .opt (.lit ['ה']), .lit ['צ', 'ה', 'ר', 'י'], .opt (.lit ['י']), .lit ['ם'], .grp 2 (.alts [.eos, .noWord])], [.ref 1, .lit ['p', 'm'], .ref 2]),
    (.seqs [.grp 1 (.alts [.bos, .noWord]), .lit ['א', 'ח', 'ה', '"', 'צ'], .grp 2 (.alts [.eos, .noWord])], [.ref 1, .lit ['p', 'm'], .ref 2]),
    (.seqs [.grp 1 (.alts [.bos, .noWord]), .lit ['ל', 'פ', 'נ', 'ו', 'ת', ' ', 'ע', 'ר', 'ב'], .grp 2 (.alts [.eos, .noWord])], [.ref 1, .lit ['p', 'm'], .ref 2]),
    (.seqs [.grp 1 (.alts [.bos, .noWord]), .lit ['ב', 'ע', 'ר', 'ב'], .grp 2 (.alts [.eos, .noWord])], [.ref 1, .lit ['p', 'm'], .ref 2])],
  relativeRegexes :=
   [(.seqs [.lit ['ב', 'ע', 'ו', 'ד', ' '], .grp 1 (.number), .lit [' ', 'ח', 'ו', 'ד', 'ש', 'י', 'ם']], [.lit ['i', 'n', ' '], .ref 1, .lit [' ', 'm', 'o', 'n', 't', 'h']]),
    (.seqs [.lit ['ב', 'ע', 'ו', 'ד', ' '], .grp 1 (.number), .lit [' ', 'ש', 'ב', 'ו', 'ע', 'ו', 'ת']], [.lit ['i', 'n', ' '], .ref 1, .lit [' ', 'w', 'e', 'e', 'k']]),
    (.seqs [.lit ['ל', 'פ', 'נ', 'י', ' '], .grp 1 (.number), .lit [' ', 'ח', 'ו', 'ד', 'ש', 'י', 'ם']], [.ref 1, .lit [' ', 'm', 'o', 'n', 't', 'h', ' ', 'a', 'g', 'o']]),
    (.seqs [.lit ['ל', 'פ', 'נ', 'י', ' '], .grp 1 (.number), .lit [' ', 'ש', 'ב', 'ו', 'ע', 'ו', 'ת']], [.ref 1, .lit [' ', 'w', 'e', 'e', 'k', ' ', 'a', 'g', 'o']]),
    (.seqs [.lit ['ב', 'ע', 'ו', 'ד', ' '], .grp 1 (.number), .lit [' ', 'ש', 'נ', 'י', 'ו', 'ת']], [.lit ['i', 'n', ' '], .ref 1, .lit [' ', 's', 'e', 'c', 'o', 'n', 'd']]),
    (.seqs [.lit ['ל', 'פ', 'נ', 'י', ' '], .grp 1 (.number), .lit [' ', 'ש', 'נ', 'י', 'ו', 'ת']], [.ref 1, .lit [' ', 's', 'e', 'c', 'o', 'n', 'd', ' ', 'a', 'g', 'o']]),
    (.seqs [.lit ['ב', 'ע', 'ו', 'ד', ' '], .grp 1 (.number), .lit [' ', 'ד', 'ק', 'ו', 'ת']], [.lit ['i', 'n', ' '], .ref 1, .lit [' ', 'm', 'i', 'n', 'u', 't', 'e']]),
    (.seqs [.lit ['ב', 'ע', 'ו', 'ד', ' '], .grp 1 (.number), .lit [' ', 'י', 'מ', 'י', 'ם']], [.lit ['i', 'n', ' '], .ref 1, .lit [' ', 'd', 'a', 'y']]),
    (.seqs [.lit ['ב', 'ע', 'ו', 'ד', ' '], .grp 1 (.number), .lit [' ', 'ש', 'נ', 'י', 'ם']], [.lit ['i', 'n', ' '], .ref 1, .lit [' ', 'y', 'e', 'a', 'r']]),
    (.seqs [.lit ['ב', 'ע', 'ו', 'ד', ' '], .grp 1 (.number), .lit [' ', 'ש', 'ע', 'ו', 'ת']], [.lit ['i', 'n', ' '], .ref 1, .lit [' ', 'h', 'o', 'u', 'r']]),
    (.seqs [.lit ['ל', 'פ', 'נ', 'י', ' '], .grp 1 (.number), .lit [' ', 'ד', 'ק', 'ו', 'ת']], [.ref 1, .lit [' ', 'm', 'i', 'n', 'u', 't', 'e', ' ', 'a', 'g', 'o']]),
    (.seqs [.lit ['ל', 'פ', 'נ', 'י', ' '], .grp 1 (.number), .lit [' ', 'י', 'מ', 'י', 'ם']], [.ref 1, .lit [' ', 'd', 'a', 'y', ' ', 'a', 'g', 'o']]),
    (.seqs [.lit ['ל', 'פ', 'נ', 'י', ' '], .grp 1 (.number), .lit [' ', 'ש', 'נ', 'י', 'ם']], [.ref 1, .lit [' ', 'y', 'e', 'a', 'r', ' ', 'a', 'g', 'o']]),
    (.seqs [.lit ['ל', 'פ', 'נ', 'י', ' '], .grp 1 (.number), .lit [' ', 'ש', 'ע', 'ו', 'ת']], [.ref 1, .lit [' ', 'h', 'o', 'u', 'r', ' ', 'a', 'g', 'o']]),
    (.seqs [.lit ['ב', 'ע', 'ו', 'ד', ' '], .grp 1 (.number), .lit [' ', 'ד', 'ק', '׳']], [.lit ['i', 'n', ' '], .ref 1, .lit [' ', 'm', 'i', 'n', 'u', 't', 'e']]),
    (.seqs [.lit ['ב', 'ע', 'ו', 'ד', ' '], .grp 1 (.number), .lit [' ', 'ח', 'ו', '׳']], [.lit ['i', 'n', ' '], .ref 1, .lit [' ', 'm', 'o', 'n', 't', 'h']]),
    (.seqs [.lit ['ב', 'ע', 'ו', 'ד', ' '], .grp 1 (.number), .lit [' ', 'י', 'מ', '׳']], [.lit ['i', 'n', ' '], .ref 1, .lit [' ', 'd', 'a', 'y']]),
    (.seqs [.lit ['ב', 'ע', 'ו', 'ד', ' '], .grp 1 (.number), .lit [' ', 'ש', 'ב', '׳']], [.lit ['i', 'n', ' '], .ref 1, .lit [' ', 'w', 'e', 'e', 'k']]),
    (.seqs [.lit ['ב', 'ע', 'ו', 'ד', ' '], .grp 1 (.number), .lit [' ', 'ש', 'נ', '׳']], [.lit ['i', 'n', ' '], .ref 1, .lit [' ', 's', 'e', 'c', 'o', 'n', 'd']]),
    (.seqs [.lit ['ב', 'ע', 'ו', 'ד', ' '], .grp 1 (.number), .lit [' ', 'ש', 'ע', '׳']], [.lit ['i', 'n', ' '], .ref 1, .lit [' ', 'h', 'o', 'u', 'r']]),
    (.seqs [.lit ['ב', 'ע', 'ו', 'ד', ' ', 'י', 'ו', 'ם', ' '], .grp 1 (.number)], [.lit ['i', 'n', ' '], .ref 1, .lit [' ', 'd', 'a', 'y']]),
    (.seqs [.lit ['ל', 'פ', 'נ', 'י', ' '], .grp 1 (.number), .lit [' ', 'ד', 'ק', '׳']], [.ref 1, .lit [' ', 'm', 'i', 'n', 'u', 't', 'e', ' ', 'a', 'g', 'o']]),
    (.seqs [.lit ['ל', 'פ', 'נ', 'י', ' '], .grp 1 (.number), .lit [' ', 'ח', 'ו', '׳']], [.ref 1, .lit [' ', 'm', 'o', 'n', 't', 'h', ' ', 'a', 'g', 'o']]),
    (.seqs [.lit ['ל', 'פ', 'נ', 'י', ' '], .grp 1 (.number), .lit [' ', 'י', 'מ', '׳']], [.ref 1, .lit [' ', 'd', 'a', 'y', ' ', 'a', 'g', 'o']]),
    (.seqs [.lit ['ל', 'פ', 'נ', 'י', ' '], .grp 1 (.number), .lit [' ', 'ש', 'ב', '׳']], [.ref 1, .lit [' ', 'w', 'e', 'e', 'k', ' ', 'a', 'g', 'o']]),
    (.seqs [.lit ['ל', 'פ', 'נ', 'י', ' '], .grp 1 (.number), .lit [' ', 'ש', 'נ', '׳']], [.ref 1, .lit [' ', 's', 'e', 'c', 'o', 'n', 'd', ' ', 'a', 'g', 'o']]),
    (.seqs [.lit ['ל', 'פ', 'נ', 'י', ' '], .grp 1 (.number), .lit [' ', 'ש', 'ע', '׳']], [.ref 1, .lit [' ', 'h', 'o', 'u', 'r', ' ', 'a', 'g', 'o']]),
    (.seqs [.lit ['ל', 'פ', 'נ', 'י', ' ', 'י', 'ו', 'ם', ' '], .grp 1 (.number)], [.ref 1, .lit [' ', 'd', 'a', 'y', ' ', 'a', 'g', 'o']])],
  rxCombined := some (.seqs [.grp 1 (.alts [.bos, .cls true [.letter, .mark, .digit], .lit ['_']]), .grp 2 (.alts [.seqs [.lit ['ב', 'ע', 'ו', 'ד', ' '], .number, .lit [' ', 'ח', 'ו', 'ד', 'ש', 'י', 'ם']], .seqs [.lit ['ב', 'ע', 'ו', 'ד', ' '], .number, .lit [' ', 'ש', 'ב', 'ו', 'ע', 'ו', 'ת']], .seqs [.lit ['ל', 'פ', 'נ', 'י', ' '], .number, .lit [' ', 'ח', 'ו', 'ד', 'ש', 'י', 'ם']], .seqs [.lit ['ל', 'פ', 'נ', 'י', ' '], .number, .lit [' ', 'ש', 'ב', 'ו', 'ע', 'ו', 'ת']], .seqs [.lit ['ב', 'ע', 'ו', 'ד', ' '], .number, .lit [' ', 'ש', 'נ', 'י', 'ו', 'ת']], .seqs [.lit ['ל', 'פ', 'נ', 'י', ' '], .number, .lit [' ', 'ש', 'נ', 'י', 'ו', 'ת']], .seqs [.lit ['ב', 'ע', 'ו', 'ד', ' '], .number, .lit [' ', 'ד', 'ק', 'ו', 'ת']], .seqs [.lit ['ב', 'ע', 'ו', 'ד', ' '], .number, .lit [' ', 'י', 'מ', 'י', 'ם']], .seqs [.lit ['ב', 'ע', 'ו', 'ד', ' '], .number, .lit [' ', 'ש', 'נ', 'י', 'ם']], .seqs [.lit ['ב', 'ע', 'ו', 'ד', ' '], .number, .lit [' ', 'ש', 'ע', 'ו', 'ת']], .seqs [.lit ['ל', 'פ', 'נ', 'י', ' '], .number, .lit [' ', 'ד', 'ק', 'ו', 'ת']], .seqs [.lit ['ל', 'פ', 'נ', 'י', ' '], .number, .lit [' ', 'י', 'מ', 'י', 'ם']], .seqs [.lit ['ל', 'פ', 'נ', 'י', ' '], .number, .lit [' ', 'ש', 'נ', 'י', 'ם']], .seqs [.lit ['ל', 'פ', 'נ', 'י', ' '], .number, .lit [' ', 'ש', 'ע', 'ו', 'ת']], .seqs [.lit ['ב', 'ע', 'ו', 'ד', ' '], .number, .lit [' ', 'ד', 'ק', '׳']], .seqs [.lit ['ב', 'ע', 'ו', 'ד', ' '], .number, .lit [' ', 'ח', 'ו', '׳']], .seqs [.lit ['ב', 'ע', 'ו', 'ד', ' '], .number, .lit [' ', 'י', 'מ', '׳']], .seqs [.lit ['ב', 'ע', 'ו', 'ד', ' '], .number, .lit [' ', 'ש', 'ב', '׳']], .seqs [.lit ['ב', 'ע', 'ו', 'ד', ' '], .number, .lit [' ', 'ש', 'נ', '׳']], .seqs [.lit ['ב', 'ע', 'ו', 'ד', ' '], .number, .lit [' ', 'ש', 'ע', '׳']], .seqs [.lit ['ב', 'ע', 'ו', 'ד', ' ', 'י', 'ו', 'ם', ' '], .number], .seqs [.lit ['ל', 'פ', 'נ', 'י', ' '], .number, .lit [' ', 'ד', 'ק', '׳']], .seqs [.lit ['ל', 'פ', 'נ', 'י', ' '], .number, .lit [' ', 'ח', 'ו', '׳']], .seqs [.lit ['ל', 'פ', 'נ', 'י', ' '], .number, .lit [' ', 'י', 'מ', '׳']], .seqs [.lit ['ל', 'פ', 'נ', 'י', ' '], .number, .lit [' ', 'ש', 'ב', '׳']], .seqs [.lit ['ל', 'פ', 'נ', 'י', ' '], .number, .lit [' ', 'ש', 'נ', '׳']], .seqs [.lit ['ל', 'פ', 'נ', 'י', ' '], .number, .lit [' ', 'ש', 'ע', '׳']], .seqs [.lit ['ל', 'פ', 'נ', 'י', ' ', 'י', 'ו', 'ם', ' '], .number]]), .grp 3 (.alts [.eos, .cls true [.letter, .mark, .digit], .lit ['_']])], 3),
  rxExact := some (.seqs [.bos, .grp 1 (.alts [.seqs [.lit ['ב', 'ע', 'ו', 'ד', ' '], .number, .lit [' ', 'ח', 'ו', 'ד', 'ש', 'י', 'ם']], .seqs [.lit ['ב', 'ע', 'ו', 'ד', ' '], .number, .lit [' ', 'ש', 'ב', 'ו', 'ע', 'ו', 'ת']], .seqs [.lit ['ל', 'פ', 'נ', 'י', ' '], .number, .lit [' ', 'ח', 'ו', 'ד', 'ש', 'י', 'ם']], .seqs [.lit ['ל', 'פ', 'נ', 'י', ' '], .number, .lit [' ', 'ש', 'ב', 'ו', 'ע', 'ו', 'ת']], .seqs [.lit ['ב', 'ע', 'ו', 'ד', ' '], .number, .lit [' ', 'ש', 'נ', 'י', 'ו', 'ת']], .seqs [.lit ['ל', 'פ', 'נ', 'י', ' '], .number, .lit [' ', 'ש', 'נ', 'י', 'ו', 'ת']], .seqs [.lit ['ב', 'ע', 'ו', 'ד', ' '], .number, .lit [' ', 'ד', 'ק', 'ו', 'ת']], .seqs [.lit ['ב', 'ע', 'ו', 'ד', ' '], .number, .lit [' ', 'י', 'מ', 'י', 'ם']], .seqs [.lit ['ב', 'ע', 'ו', 'ד', ' '], .number, .lit [' ', 'ש', 'נ', 'י', 'ם']], .seqs [.lit ['ב', 'ע', 'ו', 'ד', ' '], .number, .lit [' ', 'ש', 'ע', 'ו', 'ת']], .seqs [.lit ['ל', 'פ', 'נ', 'י', ' '], .number, .lit [' ', 'ד', 'ק', 'ו', 'ת']], .seqs [.lit ['ל', 'פ', 'נ', 'י', ' '], .number, .lit [' ', 'י', 'מ', 'י', 'ם']], .seqs [.lit ['ל', 'פ', 'נ', 'י', ' '], .number, .lit [' ', 'ש', 'נ', 'י', 'ם']], .seqs [.lit ['ל', 'פ', 'נ', 'י', ' '], .number, .lit [' ', 'ש', 'ע', 'ו', 'ת']], .seqs [.lit ['ב', 'ע', 'ו', 'ד', ' '], .number, .lit [' ', 'ד', 'ק', '׳']], .seqs [.lit ['ב', 'ע', 'ו', 'ד', ' '], .number, .lit [' ', 'ח', 'ו', '׳']], .seqs [.lit ['ב', 'ע', 'ו', 'ד', ' '], .number, .lit [' ', 'י', 'מ', '׳']], .seqs [.lit ['ב', 'ע', 'ו', 'ד', ' '], .number, .lit [' ', 'ש', 'ב', '׳']], .seqs [.lit ['ב', 'ע', 'ו', 'ד', ' '], .number, .lit [' ', 'ש', 'נ', '׳']], .seqs [.lit ['ב', 'ע', 'ו', 'ד', ' '], .number, .lit [' ', 'ש', 'ע', '׳']], .seqs [.lit ['ב', 'ע', 'ו', 'ד', ' ', 'י', 'ו', 'ם', ' '], .number], .seqs [.lit ['ל', 'פ', 'נ', 'י', ' '], .number, .lit [' ', 'ד', 'ק', '׳']], .seqs [.lit ['ל', 'פ', 'נ', 'י', ' '], .number, .lit [' ', 'ח', 'ו', '׳']], .seqs [.lit ['ל', 'פ', 'נ', 'י', ' '], .number, .lit [' ', 'י', 'מ', '׳']], .seqs [.lit ['ל', 'פ', 'נ', 'י', ' '], .number, .lit [' ', 'ש', 'ב', '׳']], .seqs [.lit ['ל', 'פ', 'נ', 'י', ' '], .number, .lit [' ', 'ש', 'נ', '׳']], .seqs [.lit ['ל', 'פ', 'נ', 'י', ' '], .number, .lit [' ', 'ש', 'ע', '׳']], .seqs [.lit ['ל', 'פ', 'נ', 'י', ' ', 'י', 'ו', 'ם', ' '], .number]]), .eos]),
  knownWords :=
   [['ה', 'ח', 'ו', 'ד', 'ש', ' ', 'ש', 'ע', 'ב', 'ר'], ['ה', 'ש', 'ב', 'ו', 'ע', ' ', 'ש', 'ע', 'ב', 'ר'], ['ה', 'ש', 'נ', 'ה', ' ', 'ש', 'ע', 'ב', 'ר', 'ה'], ['ה', 'ח', 'ו', 'ד', 'ש', ' ', 'ה', 'ב', 'א'], ['ה', 'ש', 'ב', 'ו', 'ע', ' ', 'ה', 'ב', 'א'], ['ה', 'ש', 'נ', 'ה', ' ', 'ה', 'ב', 'א', 'ה'], ['י', 'ו', 'ם', ' ', 'ח', 'מ', 'י', 'ש', 'י'], ['י', 'ו', 'ם', ' ', 'ר', 'א', 'ש', 'ו', 'ן'], ['י', 'ו', 'ם', ' ', 'ר', 'ב', 'י', 'ע', 'י'], ['י', 'ו', 'ם', ' ', 'ש', 'ל', 'י', 'ש', 'י'], ['ב', 'א', 'ו', 'ק', 'ט', 'ו', 'ב', 'ר'], ['י', 'ו', 'ם', ' ', 'ש', 'י', 'ש', 'י'], ['ל', 'א', 'ו', 'ק', 'ט', 'ו', 'ב', 'ר'], ['א', 'ו', 'ק', 'ט', 'ו', 'ב', 'ר'], ['ב', 'א', 'ו', 'ג', 'ו', 'ס', 'ט'], ['ב', 'ד', 'ק', 'ה', ' ', 'ז', 'ו'], ['ב', 'נ', 'ו', 'ב', 'מ', 'ב', 'ר'], ['ב', 'ס', 'ב', 'י', 'ב', 'ו', 'ת'], ['ב', 'ס', 'פ', 'ט', 'מ', 'ב', 'ר'], ['ב', 'פ', 'ב', 'ר', 'ו', 'א', 'ר'], ['ב', 'ש', 'ע', 'ה', ' ', 'ז', 'ו'], ['י', 'ו', 'ם', ' ', 'ש', 'ב', 'ת'], ['י', 'ו', 'ם', ' ', 'ש', 'נ', 'י'], ['ל', 'א', 'ו', 'ג', 'ו', 'ס', 'ט'], ['ל', 'נ', 'ו', 'ב', 'מ', 'ב', 'ר'], ['ל', 'ס', 'פ', 'ט', 'מ', 'ב', 'ר'], ['ל', 'פ', 'ב', 'ר', 'ו', 'א', 'ר'], ['א', 'ו', 'ג', 'ו', 'ס', 'ט'], ['ב', 'א', 'פ', 'ר', 'י', 'ל'], ['ב', 'ד', 'צ', 'מ', 'ב', 'ר'], ['ב', 'י', 'נ', 'ו', 'א', 'ר'], ['ב', 'ק', 'י', 'ר', 'ו', 'ב'], ['ח', 'ו', 'ד', 'ש', 'י', 'ם'], ['י', 'ו', 'ם', ' ', 'א', '׳'], ['י', 'ו', 'ם', ' ', 'ב', '׳'], ['י', 'ו', 'ם', ' ', 'ג', '׳'], ['י', 'ו', 'ם', ' ', 'ד', '׳'], ['י', 'ו', 'ם', ' ', 'ה', '׳'], ['י', 'ו', 'ם', ' ', 'ו', '׳'], ['ל', 'א', 'פ', 'ר', 'י', 'ל'], ['ל', 'ד', 'צ', 'מ', 'ב', 'ר'], ['ל', 'י', 'נ', 'ו', 'א', 'ר'], ['ל', 'פ', 'נ', 'ה', '״', 'צ'], ['נ', 'ו', 'ב', 'מ', 'ב', 'ר'], ['ס', 'פ', 'ט', 'מ', 'ב', 'ר'], ['פ', 'ב', 'ר', 'ו', 'א', 'ר'], ['ש', 'ב', 'ו', 'ע', 'ו', 'ת'], ['א', 'ח', 'ה', '״', 'צ'], ['א', 'פ', 'ר', 'י', 'ל'], ['א', 'ת', 'מ', 'ו', 'ל'], ['ב', 'ח', 'ו', 'ד', 'ש'], ['ב', 'י', 'ו', 'ל', 'י'], ['ב', 'י', 'ו', 'נ', 'י'], ['ב', 'מ', 'א', 'ר', 'ס'], ['ד', 'צ', 'מ', 'ב', 'ר'], ['ה', 'ח', 'ו', 'ד', 'ש'], ['ה', 'ש', 'ב', 'ו', 'ע'], ['ח', 'מ', 'י', 'ש', 'י'], ['י', 'ו', 'ם', ' ', 'א'], ['י', 'ו', 'ם', ' ', 'ב'], ['י', 'ו', 'ם', ' ', 'ג'], ['י', 'ו', 'ם', ' ', 'ד'], ['י', 'ו', 'ם', ' ', 'ה'], ['י', 'ו', 'ם', ' ', 'ו'], ['י', 'נ', 'ו', 'א', 'ר'], ['ל', 'י', 'ו', 'ל', 'י'], ['ל', 'י', 'ו', 'נ', 'י'], ['ל', 'מ', 'א', 'ר', 'ס'], ['ע', 'כ', 'ש', 'י', 'ו'], ['ר', 'א', 'ש', 'ו', 'ן'], ['ר', 'ב', 'י', 'ע', 'י'], ['ש', 'ל', 'י', 'ש', 'י'], ['ש', 'נ', 'י', 'ו', 'ת'], ['ש', 'נ', 'י', 'י', 'ה'], ['א', 'ו', 'ג', '׳'], ['א', 'ו', 'ק', '׳'], ['א', 'פ', 'ר', '׳'], ['ב', 'י', 'ו', 'ם'], ['ב', 'מ', 'א', 'י'], ['ב', 'מ', 'ר', 'ס'], ['ב', 'מ', 'ר', 'ץ'], ['ב', 'ע', 'ו', 'ד'], ['ב', 'ע', 'ר', 'ך'], ['ב', 'ש', 'נ', 'ה'], ['ב', 'ש', 'ע', 'ה'], ['ד', 'צ', 'מ', '׳'], ['ד', 'ק', 'ו', 'ת'], ['ה', 'י', 'ו', 'ם'], ['ה', 'ש', 'נ', 'ה'], ['ח', 'ו', 'ד', 'ש'], ['י', 'ו', 'ל', 'י'], ['י', 'ו', 'נ', 'י'], ['י', 'מ', 'י', 'ם'], ['י', 'נ', 'ו', '׳'], ['ל', 'מ', 'א', 'י'], ['ל', 'מ', 'ר', 'ס'], ['ל', 'מ', 'ר', 'ץ'], ['ל', 'פ', 'נ', 'י'], ['מ', 'א', 'ר', 'ס'], ['נ', 'ו', 'ב', '׳'], ['ס', 'פ', 'ט', '׳'], ['פ', 'ב', 'ר', '׳'], ['ש', 'ב', 'ו', 'ע'], ['ש', 'י', 'ש', 'י'], ['ש', 'נ', 'י', 'ה'], ['ש', 'נ', 'י', 'ם'], ['ש', 'ע', 'ו', 'ת'], ['g', 'm', 't'], ['u', 't', 'c'], ['א', 'ו', 'ג'], ['א', 'ו', 'ק'], ['א', 'פ', 'ר'], ['ד', 'צ', 'מ'], ['ד', 'ק', 'ה'], ['ד', 'ק', '׳'], ['ח', 'ו', '׳'], ['י', 'ו', 'ל'], ['י', 'ו', 'ם'], ['י', 'ו', 'נ'], ['י', 'נ', 'ו'], ['מ', 'א', 'י'], ['מ', 'ח', 'ר'], ['מ', 'ר', 'ס'], ['מ', 'ר', 'ץ'], ['נ', 'ו', 'ב'], ['ס', 'פ', 'ט'], ['ע', 'ו', 'ד'], ['פ', 'ב', 'ר'], ['ש', 'ב', 'ת'], ['ש', 'ב', '׳'], ['ש', 'נ', 'ה'], ['ש', 'נ', 'י'], ['ש', 'נ', '׳'], ['ש', 'ע', 'ה'], ['ש', 'ע', '׳'], ['a', 'm'], ['p', 'm'], ['ב', '-'], ['ה', '-'], [' '], ['\''], ['+'], [','], ['-'], ['.'], ['/'], [':'], [';'], ['@'], ['['], [']'], ['z'], ['|']] }

/-- internal/data/hi.go: `hi_Locale`. -/
def hiLang : LangData := { hiDict with
  relativeRegexes :=
   [(.seqs [.grp 1 (.number), .lit [' ', 'स', 'प', 'त', 'ा', 'ह', ' ', 'प', 'ह', 'ल']], [.ref 1, .lit [' ', 'w', 'e', 'e', 'k', ' ', 'a', 'g', 'o']]),
    (.seqs [.grp 1 (.number), .lit [' ', 'म', 'ि', 'न', 'ट', ' ', 'प', 'ह', 'ल']], [.ref 1, .lit [' ', 'm', 'i', 'n', 'u', 't', 'e', ' ', 'a', 'g', 'o']]),
    (.seqs [.grp 1 (.number), .lit [' ', 'द', 'श', 'क', ' ', 'प', 'ह', 'ल']], [.ref 1, .lit [' ', 'd', 'e', 'c', 'a', 'd', 'e', ' ', 'a', 'g', 'o']]),
    (.seqs [.grp 1 (.number), .lit [' ', 'द', 'ि', 'न', ' ', 'प', 'ह', 'ल']], [.ref 1, .lit [' ', 'd', 'a', 'y', ' ', 'a', 'g', 'o']]),
    (.seqs [.grp 1 (.number), .lit [' ', 'म', 'ा', 'ह', ' ', 'प', 'ह', 'ल']], [.ref 1, .lit [' ', 'm', 'o', 'n', 't', 'h', ' ', 'a', 'g', 'o']]),
    (.seqs [.grp 1 (.number), .lit [' ', 'व', 'र', 'ष', ' ', 'प', 'ह', 'ल']], [.ref 1, .lit [' ', 'y', 'e', 'a', 'r', ' ', 'a', 'g', 'o']]),
    (.seqs [.grp 1 (.number), .lit [' ', 'स', 'क', 'ड', ' ', 'प', 'ह', 'ल']], [.ref 1, .lit [' ', 's', 'e', 'c', 'o', 'n', 'd', ' ', 'a', 'g', 'o']]),
    (.seqs [.grp 1 (.number), .lit [' ', 'स', 'प', 'त', 'ा', 'ह', ' ', 'म']], [.lit ['i', 'n', ' '], .ref 1, .lit [' ', 'w', 'e', 'e', 'k']]),
    (.seqs [.grp 1 (.number), .lit [' ', 'घ', 'ट', ' ', 'प', 'ह', 'ल']], [.ref 1, .lit [' ', 'h', 'o', 'u', 'r', ' ', 'a', 'g', 'o']]),
    (.seqs [.grp 1 (.number), .lit [' ', 'म', 'ि', ' ', 'प', 'ह', 'ल']], [.ref 1, .lit [' ', 'm', 'i', 'n', 'u', 't', 'e', ' ', 'a', 'g', 'o']]),
    (.seqs [.grp 1 (.number), .lit [' ', 'म', 'ि', 'न', 'ट', ' ', 'म']], [.lit ['i', 'n', ' '], .ref 1, .lit [' ', 'm', 'i', 'n', 'u', 't', 'e']]),
    (.seqs [.grp 1 (.number), .lit [' ', 'घ', ' ', 'प', 'ह', 'ल']], [.ref 1, .lit [' ', 'h', 'o', 'u', 'r', ' ', 'a', 'g', 'o']]),
    (.seqs [.grp 1 (.number), .lit [' ', 'द', 'श', 'क', ' ', 'म']], [.lit ['i', 'n', ' '], .ref 1, .lit [' ', 'd', 'e', 'c', 'a', 'd', 'e']]),
    (.seqs [.grp 1 (.number), .lit [' ', 'द', 'ि', 'न', ' ', 'म']], [.lit ['i', 'n', ' '], .ref 1, .lit [' ', 'd', 'a', 'y']]),
    (.seqs [.grp 1 (.number), .lit [' ', 'म', 'ा', 'ह', ' ', 'म']], [.lit ['i', 'n', ' '], .ref 1, .lit [' ', 'm', 'o', 'n', 't', 'h']]),
    (.seqs [.grp 1 (.number), .lit [' ', 'व', 'र', 'ष', ' ', 'म']], [.lit ['i', 'n', ' '], .ref 1, .lit [' ', 'y', 'e', 'a', 'r']]),
    (.seqs [.grp 1 (.number), .lit [' ', 'स', ' ', 'प', 'ह', 'ल']], [.ref 1, .lit [' ', 's', 'e', 'c', 'o', 'n', 'd', ' ', 'a', 'g', 'o']]),
    (.seqs [.grp 1 (.number), .lit [' ', 'स', 'क', 'ड', ' ', 'म']], [.lit ['i', 'n', ' '], .ref 1, .lit [' ', 's', 'e', 'c', 'o', 'n', 'd']]),
    (.seqs [.grp 1 (.number), .lit [' ', 'घ', 'ट', ' ', 'म']], [.lit ['i', 'n', ' '], .ref 1, .lit [' ', 'h', 'o', 'u', 'r']]),
    (.seqs [.grp 1 (.number), .lit [' ', 'म', 'ि', ' ', 'म']], [.lit ['i', 'n', ' '], .ref 1, .lit [' ', 'm', 'i', 'n', 'u', 't', 'e']]),
    (.seqs [.grp 1 (.number), .lit [' ', 'घ', ' ', 'म']], [.lit ['i', 'n', ' '], .ref 1, .lit [' ', 'h', 'o', 'u', 'r']]),
    (.seqs [.grp 1 (.number), .lit [' ', 'स', ' ', 'म']], [.lit ['i', 'n', ' '], .ref 1, .lit [' ', 's', 'e', 'c', 'o', 'n', 'd']])],
  rxCombined := some (.seqs [.grp 1 (.alts [.bos, .cls true [.letter, .mark, .digit], .lit ['_']]), .grp 2 (.alts [.seqs [.number, .lit [' ', 'स', 'प', 'त', 'ा', 'ह', ' ', 'प', 'ह', 'ल']], .seqs [.number, .lit [' ', 'म', 'ि', 'न', 'ट', ' ', 'प', 'ह', 'ल']], .seqs [.number, .lit [' ', 'द', 'श', 'क', ' ', 'प', 'ह', 'ल']], .seqs [.number, .lit [' ', 'द', 'ि', 'न', ' ', 'प', 'ह', 'ल']], .seqs [.number, .lit [' ', 'म', 'ा', 'ह', ' ', 'प', 'ह', 'ल']], .seqs [.number, .lit [' ', 'व', 'र', 'ष', ' ', 'प', 'ह', 'ल']], .seqs [.number, .lit [' ', 'स', 'क', 'ड', ' ', 'प', 'ह', 'ल']], .seqs [.number, .lit [' ', 'स', 'प', 'त', 'ा', 'ह', ' ', 'म']], .seqs [.number, .lit [' ', 'घ', 'ट', ' ', 'प', 'ह', 'ल']], .seqs [.number, .lit [' ', 'म', 'ि', ' ', 'प', 'ह', 'ल']], .seqs [.number, .lit [' ', 'म', 'ि', 'न', 'ट', ' ', 'म']], .seqs [.number, .lit [' ', 'घ', ' ', 'प', 'ह', 'ल']], .seqs [.number, .lit [' ', 'द', 'श', 'क', ' ', 'म']], .seqs [.number, .lit [' ', 'द', 'ि', 'न', ' ', 'म']], .seqs [.number, .lit [' ', 'म', 'ा', 'ह', ' ', 'म']], .seqs [.number, .lit [' ', 'व', 'र', 'ष', ' ', 'म']], .seqs [.number, .lit [' ', 'स', ' ', 'प', 'ह', 'ल']], .seqs [.number, .lit [' ', 'स', 'क', 'ड', ' ', 'म']], .seqs [.number, .lit [' ', 'घ', 'ट', ' ', 'म']], .seqs [.number, .lit [' ', 'म', 'ि', ' ', 'म']], .seqs [.number, .lit [' ', 'घ', ' ', 'म']], .seqs [.number, .lit [' ', 'स', ' ', 'म']]]), .grp 3 (.alts [.eos, .cls true [.letter, .mark, .digit], .lit ['_']])], 3),
  rxExact := some (.seqs [.bos, .grp 1 (.alts [.seqs [.number, .lit [' ', 'स', 'प', 'त', 'ा', 'ह', ' ', 'प', 'ह', 'ल']], .seqs [.number, .lit [' ', 'म', 'ि', 'न', 'ट', ' ', 'प', 'ह', 'ल']], .seqs [.number, .lit [' ', 'द', 'श', 'क', ' ', 'प', 'ह', 'ल']], .seqs [.number, .lit [' ', 'द', 'ि', 'न', ' ', 'प', 'ह', 'ल']], .seqs [.number, .lit [' ', 'म', 'ा', 'ह', ' ', 'प', 'ह', 'ल']], .seqs [.number, .lit [' ', 'व', 'र', 'ष', ' ', 'प', 'ह', 'ल']], .seqs [.number, .lit [' ', 'स', 'क', 'ड', ' ', 'प', 'ह', 'ल']], .seqs [.number, .lit [' ', 'स', 'प', 'त', 'ा', 'ह', ' ', 'म']], .seqs [.number, .lit [' ', 'घ', 'ट', ' ', 'प', 'ह', 'ल']], .seqs [.number, .lit [' ', 'म', 'ि', ' ', 'प', 'ह', 'ल']], .seqs [.number, .lit [' ', 'म', 'ि', 'न', 'ट', ' ', 'म']], .seqs [.number, .lit [' ', 'घ', ' ', 'प', 'ह', 'ल']], .seqs [.number, .lit [' ', 'द', 'श', 'क', ' ', 'म']], .seqs [.number, .lit [' ', 'द', 'ि', 'न', ' ', 'म']], .seqs [.number, .lit [' ', 'म', 'ा', 'ह', ' ', 'म']], .seqs [.number, .lit [' ', 'व', 'र', 'ष', ' ', 'म']], .seqs [.number, .lit [' ', 'स', ' ', 'प', 'ह', 'ल']], .seqs [.number, .lit [' ', 'स', 'क', 'ड', ' ', 'म']], .seqs [.number, .lit [' ', 'घ', 'ट', ' ', 'म']], .seqs [.number, .lit [' ', 'म', 'ि', ' ', 'म']], .seqs [.number, .lit [' ', 'घ', ' ', 'म']], .seqs [.number, .lit [' ', 'स', ' ', 'म']]]), .eos]),
  knownWords :=
   [['प', 'ि', 'छ', 'ल', 'ा', ' ', 'स', 'प', 'त', 'ा', 'ह'], ['अ', 'ग', 'ल', 'ा', ' ', 'स', 'प', 'त', 'ा', 'ह'], ['प', 'ि', 'छ', 'ल', 'ा', ' ', 'द', 'श', 'क'], ['प', 'ि', 'छ', 'ल', 'ा', ' ', 'म', 'ा', 'ह'], ['प', 'ि', 'छ', 'ल', 'ा', ' ', 'व', 'र', 'ष'], ['अ', 'ग', 'ल', 'ा', ' ', 'द', 'श', 'क'], ['अ', 'ग', 'ल', 'ा', ' ', 'म', 'ा', 'ह'], ['अ', 'ग', 'ल', 'ा', ' ', 'व', 'र', 'ष'], ['इ', 'स', ' ', 'स', 'प', 'त', 'ा', 'ह'], ['य', 'ह', ' ', 'म', 'ि', 'न', 'ट'], ['अ', 'प', 'र', 'ा', 'ह', 'न'], ['इ', 'स', ' ', 'म', 'ा', 'ह'], ['इ', 'स', ' ', 'व', 'र', 'ष'], ['द', 'ि', 'स', 'म', 'ब', 'र'], ['प', 'र', 'व', 'ा', 'ह', 'न'], ['म', 'ग', 'ल', 'व', 'ा', 'र'], ['य', 'ह', ' ', 'घ', 'ट', 'ा'], ['र', 'व', 'ि', 'व', 'ा', 'र'], ['श', 'क', 'र', 'व', 'ा', 'र'], ['श', 'न', 'ि', 'व', 'ा', 'र'], ['स', 'ि', 'त', 'म', 'ब', 'र'], ['स', 'ो', 'म', 'व', 'ा', 'र'], ['अ', 'क', 'ट', 'ब', 'र'], ['अ', 'क', 'त', 'ब', 'र'], ['ग', 'र', 'व', 'ा', 'र'], ['ज', 'न', 'व', 'र', 'ी'], ['द', 'ि', 'स', 'ब', 'र'], ['न', 'व', 'म', 'ब', 'र'], ['फ', 'र', 'व', 'र', 'ी'], ['ब', 'ध', 'व', 'ा', 'र'], ['म', 'ह', 'ी', 'न', 'ा'], ['स', 'प', 'त', 'ा', 'ह'], ['स', 'ि', 'त', 'ब', 'र'], ['अ', 'क', 'त', '॰'], ['अ', 'ग', 'स', 'त'], ['अ', 'प', 'र', 'ल'], ['ज', 'ल', 'ा', 'ई'], ['द', 'ि', 'व', 'स'], ['द', 'ि', 'स', '॰'], ['न', 'व', 'ब', 'र'], ['प', 'र', 'स', 'ो'], ['म', 'ह', 'ी', 'न'], ['म', 'ा', 'र', 'च'], ['म', 'ि', 'न', 'ट'], ['व', 'र', 'ष', 'ो'], ['स', 'ि', 'त', '॰'], ['g', 'm', 't'], ['u', 't', 'c'], ['अ', 'ग', '॰'], ['घ', 'ट', 'ा'], ['ज', 'न', '॰'], ['ज', 'ल', '॰'], ['द', 'श', 'क'], ['द', 'ि', 'न'], ['न', 'व', '॰'], ['प', 'र', 'व'], ['प', 'ह', 'ल'], ['फ', 'र', '॰'], ['ब', 'ा', 'द'], ['म', 'ग', 'ल'], ['म', 'ा', 'स'], ['म', 'ा', 'ह'], ['र', 'व', 'ि'], ['व', 'र', 'ष'], ['श', 'क', 'र'], ['श', 'न', 'ि'], ['स', 'क', 'ड'], ['स', 'ा', 'ल'], ['स', 'ो', 'म'], ['a', 'm'], ['p', 'm'], ['अ', 'ब'], ['आ', 'ज'], ['क', 'ल'], ['क', 'ो'], ['ग', 'र'], ['घ', 'ट'], ['ज', 'न'], ['ब', 'ज'], ['ब', 'ध'], ['म', 'ई'], ['म', 'ि'], ['स', 'न'], [' '], ['\''], ['+'], [','], ['-'], ['.'], ['/'], [':'], [';'], ['@'], ['['], [']'], ['z'], ['|'], ['क'], ['घ'], ['म'], ['स']] }

/-- internal/data/hr.go: `hr_Locale`. -/
def hrLang : LangData := { hrDict with
  simplifications :=
   [(.seqs [.grp 1 (.alts [.bos, .noWord]), .lit ['p', 'o', 'd', 'n', 'e'], .grp 2 (.alts [.eos, .noWord])], [.ref 1, .lit ['1', '2', ':', '0', '0'], .ref 2]),
    (.seqs [.grp 1 (.alts [.bos, .noWord]), .lit ['p', 'o', 'n', 'o', 'c'], .grp 2 (.alts [.eos, .noWord])], [.ref 1, .lit ['0', '0', ':', '0', '0'], .ref 2])],
  relativeRegexes :=
   [(.seqs [.lit ['p', 'r', 'i', 'j', 'e', ' '], .grp 1 (.number), .lit [' ', 'm', 'j', 'e', 's', 'e', 'c', 'a']], [.ref 1, .lit [' ', 'm', 'o', 'n', 't', 'h', ' ', 'a', 'g', 'o']]),
    (.seqs [.lit ['p', 'r', 'i', 'j', 'e', ' '], .grp 1 (.number), .lit [' ', 'm', 'j', 'e', 's', 'e', 'c', 'i']], [.ref 1, .lit [' ', 'm', 'o', 'n', 't', 'h', ' ', 'a', 'g', 'o']]),
    (.seqs [.lit ['p', 'r', 'i', 'j', 'e', ' '], .grp 1 (.number), .lit [' ', 's', 'e', 'k', 'u', 'n', 'd', 'e']], [.ref 1, .lit [' ', 's', 'e', 'c', 'o', 'n', 'd', ' ', 'a', 'g', 'o']]),
    (.seqs [.lit ['p', 'r', 'i', 'j', 'e', ' '], .grp 1 (.number), .lit [' ', 's', 'e', 'k', 'u', 'n', 'd', 'i']], [.ref 1, .lit [' ', 's', 'e', 'c', 'o', 'n', 'd', ' ', 'a', 'g', 'o']]),
    (.seqs [.lit ['p', 'r', 'i', 'j', 'e', ' '], .grp 1 (.number), .lit [' ', 's', 'e', 'k', 'u', 'n', 'd', 'u']], [.ref 1, .lit [' ', 's', 'e', 'c', 'o', 'n', 'd', ' ', 'a', 'g', 'o']]),
    (.seqs [.lit ['p', 'r', 'i', 'j', 'e', ' '], .grp 1 (.number), .lit [' ', 't', 'j', 'e', 'd', 'a', 'n', 'a']], [.ref 1, .lit [' ', 'w', 'e', 'e', 'k', ' ', 'a', 'g', 'o']]),
    (.seqs [.lit ['p', 'r', 'i', 'j', 'e', ' '], .grp 1 (.number), .lit [' ', 'g', 'o', 'd', 'i', 'n', 'a']], [.ref 1, .lit [' ', 'y', 'e', 'a', 'r', ' ', 'a', 'g', 'o']]),
    (.seqs [.lit ['p', 'r', 'i', 'j', 'e', ' '], .grp 1 (.number), .lit [' ', 'g', 'o', 'd', 'i', 'n', 'e']], [.ref 1, .lit [' ', 'y', 'e', 'a', 'r', ' ', 'a', 'g', 'o']]),
    (.seqs [.lit ['p', 'r', 'i', 'j', 'e', ' '], .grp 1 (.number), .lit [' ', 'g', 'o', 'd', 'i', 'n', 'u']], [.ref 1, .lit [' ', 'y', 'e', 'a', 'r', ' ', 'a', 'g', 'o']]),
    (.seqs [.lit ['p', 'r', 'i', 'j', 'e', ' '], .grp 1 (.number), .lit [' ', 'm', 'i', 'n', 'u', 't', 'a']], [.ref 1, .lit [' ', 'm', 'i', 'n', 'u', 't', 'e', ' ', 'a', 'g', 'o']]),
    (.seqs [.lit ['p', 'r', 'i', 'j', 'e', ' '], .grp 1 (.number), .lit [' ', 'm', 'i', 'n', 'u', 't', 'e']], [.ref 1, .lit [' ', 'm', 'i', 'n', 'u', 't', 'e', ' ', 'a', 'g', 'o']]),
    (.seqs [.lit ['p', 'r', 'i', 'j', 'e', ' '], .grp 1 (.number), .lit [' ', 'm', 'i', 'n', 'u', 't', 'u']], [.ref 1, .lit [' ', 'm', 'i', 'n', 'u', 't', 'e', ' ', 'a', 'g', 'o']]),
    (.seqs [.lit ['p', 'r', 'i', 'j', 'e', ' '], .grp 1 (.number), .lit [' ', 'm', 'j', 'e', 's', 'e', 'c']], [.ref 1, .lit [' ', 'm', 'o', 'n', 't', 'h', ' ', 'a', 'g', 'o']]),
    (.seqs [.lit ['p', 'r', 'i', 'j', 'e', ' '], .grp 1 (.number), .lit [' ', 't', 'j', 'e', 'd', 'a', 'n']], [.ref 1, .lit [' ', 'w', 'e', 'e', 'k', ' ', 'a', 'g', 'o']]),
    (.seqs [.lit ['p', 'r', 'i', 'j', 'e', ' '], .grp 1 (.number), .lit [' ', 't', 'j', 'e', 'd', 'n', 'a']], [.ref 1, .lit [' ', 'w', 'e', 'e', 'k', ' ', 'a', 'g', 'o']]),
    (.seqs [.lit ['p', 'r', 'i', 'j', 'e', ' '], .grp 1 (.number), .lit [' ', 'd', 'a', 'n', 'a']], [.ref 1, .lit [' ', 'd', 'a', 'y', ' ', 'a', 'g', 'o']]),
    (.seqs [.lit ['p', 'r', 'i', 'j', 'e', ' '], .grp 1 (.number), .lit [' ', 's', 'a', 't', 'a']], [.ref 1, .lit [' ', 'h', 'o', 'u', 'r', ' ', 'a', 'g', 'o']]),
    (.seqs [.lit ['p', 'r', 'i', 'j', 'e', ' '], .grp 1 (.number), .lit [' ', 's', 'a', 't', 'i']], [.ref 1, .lit [' ', 'h', 'o', 'u', 'r', ' ', 'a', 'g', 'o']]),
    (.seqs [.lit ['z', 'a', ' '], .grp 1 (.number), .lit [' ', 'm', 'j', 'e', 's', 'e', 'c', 'a']], [.lit ['i', 'n', ' '], .ref 1, .lit [' ', 'm', 'o', 'n', 't', 'h']]),
    (.seqs [.lit ['z', 'a', ' '], .grp 1 (.number), .lit [' ', 'm', 'j', 'e', 's', 'e', 'c', 'i']], [.lit ['i', 'n', ' '], .ref 1, .lit [' ', 'm', 'o', 'n', 't', 'h']]),
    (.seqs [.lit ['z', 'a', ' '], .grp 1 (.number), .lit [' ', 's', 'e', 'k', 'u', 'n', 'd', 'e']], [.lit ['i', 'n', ' '], .ref 1, .lit [' ', 's', 'e', 'c', 'o', 'n', 'd']]),
    (.seqs [.lit ['z', 'a', ' '], .grp 1 (.number), .lit [' ', 's', 'e', 'k', 'u', 'n', 'd', 'i']], [.lit ['i', 'n', ' '], .ref 1, .lit [' ', 's', 'e', 'c', 'o', 'n', 'd']]),
    (.seqs [.lit ['z', 'a', ' '], .grp 1 (.number), .lit [' ', 's', 'e', 'k', 'u', 'n', 'd', 'u']], [.lit ['i', 'n', ' '], .ref 1, .lit [' ', 's', 'e', 'c', 'o', 'n', 'd']]),
    (.seqs [.lit ['z', 'a', ' '], .grp 1 (.number), .lit [' ', 't', 'j', 'e', 'd', 'a', 'n', 'a']], [.lit ['i', 'n', ' '], .ref 1, .lit [' ', 'w', 'e', 'e', 'k']]),
    (.seqs [.lit ['p', 'r', 'i', 'j', 'e', ' '], .grp 1 (.number), .lit [' ', 'd', 'a', 'n']], [.ref 1, .lit [' ', 'd', 'a', 'y', ' ', 'a', 'g', 'o']]),
    (.seqs [.lit ['p', 'r', 'i', 'j', 'e', ' '], .grp 1 (.number), .lit [' ', 'm', 'i', 'n']], [.ref 1, .lit [' ', 'm', 'i', 'n', 'u', 't', 'e', ' ', 'a', 'g', 'o']]),
    (.seqs [.lit ['p', 'r', 'i', 'j', 'e', ' '], .grp 1 (.number), .lit [' ', 's', 'a', 't']], [.ref 1, .lit [' ', 'h', 'o', 'u', 'r', ' ', 'a', 'g', 'o']]),
    (.seqs [.lit ['z', 'a', ' '], .grp 1 (.number), .lit [' ', 'g', 'o', 'd', 'i', 'n', 'a']], [.lit ['i', 'n', ' '], .ref 1, .lit [' ', 'y', 'e', 'a', 'r']]),
    (.seqs [.lit ['z', 'a', ' '], .grp 1 (.number), .lit [' ', 'g', 'o', 'd', 'i', 'n', 'e']], [.lit ['i', 'n', ' '], .ref 1, .lit [' ', 'y', 'e', 'a', 'r']]),
    (.seqs [.lit ['z', 'a', ' '], .grp 1 (.number), .lit [' ', 'g', 'o', 'd', 'i', 'n', 'u']], [.lit ['i', 'n', ' '], .ref 1, .lit [' ', 'y', 'e', 'a', 'r']]),
    (.seqs [.lit ['z', 'a', ' '], .grp 1 (.number), .lit [' ', 'm', 'i', 'n', 'u', 't', 'a']], [.lit ['i', 'n', ' '], .ref 1, .lit [' ', 'm', 'i', 'n', 'u', 't', 'e']]),
    (.seqs [.lit ['z', 'a', ' '], .grp 1 (.number), .lit [' ', 'm', 'i', 'n', 'u', 't', 'e']], [.lit ['i', 'n', ' '], .ref 1, .lit [' ', 'm', 'i', 'n', 'u', 't', 'e']]),
    (.seqs [.lit ['z', 'a', ' '], .grp 1 (.number), .lit [' ', 'm', 'i', 'n', 'u', 't', 'u']], [.lit ['i', 'n', ' '], .ref 1, .lit [' ', 'm', 'i', 'n', 'u', 't', 'e']]),
    (.seqs [.lit ['z', 'a', ' '], .grp 1 (.number), .lit [' ', 'm', 'j', 'e', 's', 'e', 'c']], [.lit ['i', 'n', ' '], .ref 1, .lit [' ', 'm', 'o', 'n', 't', 'h']]),
    (.seqs [.lit ['z', 'a', ' '], .grp 1 (.number), .lit [' ', 't', 'j', 'e', 'd', 'a', 'n']], [.lit ['i', 'n', ' '], .ref 1, .lit [' ', 'w', 'e', 'e', 'k']]),
    (.seqs [.lit ['z', 'a', ' '], .grp 1 (.number), .lit [' ', 't', 'j', 'e', 'd', 'n', 'a']], [.lit ['i', 'n', ' '], .ref 1, .lit [' ', 'w', 'e', 'e', 'k']]),
    (.seqs [.lit ['p', 'r', 'i', 'j', 'e', ' '], .grp 1 (.number), .lit [' ', 'm', 'j']], [.ref 1, .lit [' ', 'm', 'o', 'n', 't', 'h', ' ', 'a', 'g', 'o']]),
    (.seqs [.lit ['p', 'r', 'i', 'j', 'e', ' '], .grp 1 (.number), .lit [' ', 't', 'j']], [.ref 1, .lit [' ', 'w', 'e', 'e', 'k', ' ', 'a', 'g', 'o']]),
    (.seqs [.lit ['p', 'r', 'i', 'j', 'e', ' '], .grp 1 (.number), .lit [' ', 'd']], [.ref 1, .lit [' ', 'd', 'a', 'y', ' ', 'a', 'g', 'o']]),
    (.seqs [.lit ['p', 'r', 'i', 'j', 'e', ' '], .grp 1 (.number), .lit [' ', 'g']], [.ref 1, .lit [' ', 'y', 'e', 'a', 'r', ' ', 'a', 'g', 'o']]),
    (.seqs [.lit ['p', 'r', 'i', 'j', 'e', ' '], .grp 1 (.number), .lit [' ', 'h']], [.ref 1, .lit [' ', 'h', 'o', 'u', 'r', ' ', 'a', 'g', 'o']]),
    (.seqs [.lit ['p', 'r', 'i', 'j', 'e', ' '], .grp 1 (.number), .lit [' ', 's']], [.ref 1, .lit [' ', 's', 'e', 'c', 'o', 'n', 'd', ' ', 'a', 'g', 'o']]),
    (.seqs [.lit ['z', 'a', ' '], .grp 1 (.number), .lit [' ', 'd', 'a', 'n', 'a']], [.lit ['i', 'n', ' '], .ref 1, .lit [' ', 'd', 'a', 'y']]),
    (.seqs [.lit ['z', 'a', ' '], .grp 1 (.number), .lit [' ', 's', 'a', 't', 'a']], [.lit ['i', 'n', ' '], .ref 1, .lit [' ', 'h', 'o', 'u', 'r']]),
    (.seqs [.lit ['z', 'a', ' '], .grp 1 (.number), .lit [' ', 's', 'a', 't', 'i']], [.lit ['i', 'n', ' '], .ref 1, .lit [' ', 'h', 'o', 'u', 'r']]),
    (.seqs [.lit ['z', 'a', ' '], .grp 1 (.number), .lit [' ', 'd', 'a', 'n']], [.lit ['i', 'n', ' '], .ref 1, .lit [' ', 'd', 'a', 'y']]),
    (.seqs [.lit ['z', 'a', ' '], .grp 1 (.number), .lit [' ', 'm', 'i', 'n']], [.lit ['i', 'n', ' '], .ref 1, .lit [' ', 'm', 'i', 'n', 'u', 't', 'e']]),
    (.seqs [.lit ['z', 'a', ' '], .grp 1 (.number), .lit [' ', 's', 'a', 't']], [.lit ['i', 'n', ' '], .ref 1, .lit [' ', 'h', 'o', 'u', 'r']]),
    (.seqs [.lit ['z', 'a', ' '], .grp 1 (.number), .lit [' ', 'm', 'j']], [.lit ['i', 'n', ' '], .ref 1, .lit [' ', 'm', 'o', 'n', 't', 'h']]),
    (.seqs [.lit ['z', 'a', ' '], .grp 1 (.number), .lit [' ', 't', 'j']], [.lit ['i', 'n', ' '], .ref 1, .lit [' ', 'w', 'e', 'e', 'k']]),
    (.seqs [.lit ['z', 'a', ' '], .grp 1 (.number), .lit [' ', 'd']], [.lit ['i', 'n', ' '], .ref 1, .lit [' ', 'd', 'a', 'y']]),
    (.seqs [.lit ['z', 'a', ' '], .grp 1 (.number), .lit [' ', 'g']], [.lit ['i', 'n', ' '], .ref 1, .lit [' ', 'y', 'e', 'a', 'r']]),
    (.seqs [.lit ['z', 'a', ' '], .grp 1 (.number), .lit [' ', 'h']], [.lit ['i', 'n', ' '], .ref 1, .lit [' ', 'h', 'o', 'u', 'r']]),
    (.seqs [.lit ['z', 'a', ' '], .grp 1 (.number), .lit [' ', 's']], [.lit ['i', 'n', ' '], .ref 1, .lit [' ', 's', 'e', 'c', 'o', 'n', 'd']])],
  rxCombined := some (.seqs [.grp 1 (.alts [.bos, .cls true [.letter, .mark, .digit], .lit ['_']]), .grp 2 (.alts [.seqs [.lit ['p', 'r', 'i', 'j', 'e', ' '], .number, .lit [' ', 'm', 'j', 'e', 's', 'e', 'c', 'a']], .seqs [.lit ['p', 'r', 'i', 'j', 'e', ' '], .number, .lit [' ', 'm', 'j', 'e', 's', 'e', 'c', 'i']], .seqs [.lit ['p', 'r', 'i', 'j', 'e', ' '], .number, .lit [' ', 's', 'e', 'k', 'u', 'n', 'd', 'e']], .seqs [.lit ['p', 'r', 'i', 'j', 'e', ' '], .number, .lit [' ', 's', 'e', 'k', 'u', 'n', 'd', 'i']], .seqs [.lit ['p', 'r', 'i', 'j', 'e', ' '], .number, .lit [' ', 's', 'e', 'k', 'u', 'n', 'd', 'u']], .seqs [.lit ['p', 'r', 'i', 'j', 'e', ' '], .number, .lit [' ', 't', 'j', 'e', 'd', 'a', 'n', 'a']], .seqs [.lit ['p', 'r', 'i', 'j', 'e', ' '], .number, .lit [' ', 'g', 'o', 'd', 'i', 'n', 'a']], .seqs [.lit ['p', 'r', 'i', 'j', 'e', ' '], .number, .lit [' ', 'g', 'o', 'd', 'i', 'n', 'e']], .seqs [.lit ['p', 'r', 'i', 'j', 'e', ' '], .number, .lit [' ', 'g', 'o', 'd', 'i', 'n', 'u']], .seqs [.lit ['p', 'r', 'i', 'j', 'e', ' '], .number, .lit [' ', 'm', 'i', 'n', 'u', 't', 'a']], .seqs [.lit ['p', 'r', 'i', 'j', 'e', ' '], .number, .lit [' ', 'm', 'i', 'n', 'u', 't', 'e']], .seqs [.lit ['p', 'r', 'i', 'j', 'e', ' '], .number, .lit [' ', 'm', 'i', 'n', 'u', 't', 'u']], .seqs [.lit ['p', 'r', 'i', 'j', 'e', ' '], .number, .lit [' ', 'm', 'j', 'e', 's', 'e', 'c']], .seqs [.lit ['p', 'r', 'i', 'j', 'e', ' '], .number, .lit [' ', 't', 'j', 'e', 'd', 'a', 'n']], .seqs [.lit ['p', 'r', 'i', 'j', 'e', ' '], .number, .lit [' ', 't', 'j', 'e', 'd', 'n', 'a']], .seqs [.lit ['p', 'r', 'i', 'j', 'e', ' '], .number, .lit [' ', 'd', 'a', 'n', 'a']], .seqs [.lit ['p', 'r', 'i', 'j', 'e', ' '], .number, .lit [' ', 's', 'a', 't', 'a']], .seqs [.lit ['p', 'r', 'i', 'j', 'e', ' '], .number, .lit [' ', 's', 'a', 't', 'i']], .seqs [.lit ['z', 'a', ' '], .number, .lit [' ', 'm', 'j', 'e', 's', 'e', 'c', 'a']], .seqs [.lit ['z', 'a', ' '], .number, .lit [' ', 'm', 'j', 'e', 's', 'e', 'c', 'i']], .seqs [.lit ['z', 'a', ' '], .number, .lit [' ', 's', 'e', 'k', 'u', 'n', 'd', 'e']], .seqs [.lit ['z', 'a', ' '], .number, .lit [' ', 's', 'e', 'k', 'u', 'n', 'd', 'i']], .seqs [.lit ['z', 'a', ' '], .number, .lit [' ', 's', 'e', 'k', 'u', 'n', 'd', 'u']], .seqs [.lit ['z', 'a', ' '], .number, .lit [' ', 't', 'j', 'e', 'd', 'a', 'n', 'a']], .seqs [.lit ['p', 'r', 'i', 'j', 'e', ' '], .number, .lit [' ', 'd', 'a', 'n']], .seqs [.lit ['p', 'r', 'i', 'j', 'e', ' '], .number, .lit [' ', 'm', 'i', 'n']], .seqs [.lit ['p', 'r', 'i', 'j', 'e', ' '], .number, .lit [' ', 's', 'a', 't']], .seqs [.lit ['z', 'a', ' '], .number, .lit [' ', 'g', 'o', 'd', 'i', 'n', 'a']], .seqs [.lit ['z', 'a', ' '], .number, .lit [' ', 'g', 'o', 'd', 'i', 'n', 'e']], .seqs [.lit ['z', 'a', ' '], .number, .lit [' ', 'g', 'o', 'd', 'i', 'n', 'u']], .seqs [.lit ['z', 'a', ' '], .number, .lit [' ', 'm', 'i', 'n', 'u', 't', 'a']], .seqs [.lit ['z', 'a', ' '], .number, .lit [' ', 'm', 'i', 'n', 'u', 't', 'e']], .seqs [.lit ['z', 'a', ' '], .number, .lit [' ', 'm', 'i', 'n', 'u', 't', 'u']], .seqs [.lit ['z', 'a', ' '], .number, .lit [' ', 'm', 'j', 'e', 's', 'e', 'c']], .seqs [.lit ['z', 'a', ' '], .number, .lit [' ', 't', 'j', 'e', 'd', 'a', 'n']], .seqs [.lit ['z', 'a', ' '], .number, .lit [' ', 't', 'j', 'e', 'd', 'n', 'a']], .seqs [.lit ['p', 'r', 'i', 'j', 'e', ' '], .number, .lit [' ', 'm', 'j']], .seqs [.lit ['p', 'r', 'i', 'j', 'e', ' '], .number, .lit [' ', 't', 'j']], .seqs [.lit ['p', 'r', 'i', 'j', 'e', ' '], .number, .lit [' ', 'd']], .seqs [.lit ['p', 'r', 'i', 'j', 'e', ' '], .number, .lit [' ', 'g']], .seqs [.lit ['p', 'r', 'i', 'j', 'e', ' '], .number, .lit [' ', 'h']], .seqs [.lit ['p', 'r', 'i', 'j', 'e', ' '], .number, .lit [' ', 's']], .seqs [.lit ['z', 'a', ' '], .number, .lit [' ', 'd', 'a', 'n', 'a']], .seqs [.lit ['z', 'a', ' '], .number, .lit [' ', 's', 'a', 't', 'a']], .seqs [.lit ['z', 'a', ' '], .number, .lit [' ', 's', 'a', 't', 'i']], .seqs [.lit ['z', 'a', ' '], .number, .lit [' ', 'd', 'a', 'n']], .seqs [.lit ['z', 'a', ' '], .number, .lit [' ', 'm', 'i', 'n']], .seqs [.lit ['z', 'a', ' '], .number, .lit [' ', 's', 'a', 't']], .seqs [.lit ['z', 'a', ' '], .number, .lit [' ', 'm', 'j']], .seqs [.lit ['z', 'a', ' '], .number, .lit [' ', 't', 'j']], .seqs [.lit ['z', 'a', ' '], .number, .lit [' ', 'd']], .seqs [.lit ['z', 'a', ' '], .number, .lit [' ', 'g']], .seqs [.lit ['z', 'a', ' '], .number, .lit [' ', 'h']], .seqs [.lit ['z', 'a', ' '], .number, .lit [' ', 's']]]), .grp 3 (.alts [.eos, .cls true [.letter, .mark, .digit], .lit ['_']])], 3),
  rxExact := some (.seqs [.bos, .grp 1 (.alts [.seqs [.lit ['p', 'r', 'i', 'j', 'e', ' '], .number, .lit [' ', 'm', 'j', 'e', 's', 'e', 'c', 'a']], .seqs [.lit ['p', 'r', 'i', 'j', 'e', ' '], .number, .lit [' ', 'm', 'j', 'e', 's', 'e', 'c', 'i']], .seqs [.lit ['p', 'r', 'i', 'j', 'e', ' '], .number, .lit [' ', 's', 'e', 'k', 'u', 'n', 'd', 'e']], .seqs [.lit ['p', 'r', 'i', 'j', 'e', ' '], .number, .lit [' ', 's', 'e', 'k', 'u', 'n', 'd', 'i']], .seqs [.lit ['p', 'r', 'i', 'j', 'e', ' '], .number, .lit [' ', 's', 'e', 'k', 'u', 'n', 'd', 'u']], .seqs [.lit ['p', 'r', 'i', 'j', 'e', ' '], .number, .lit [' ', 't', 'j', 'e', 'd', 'a', 'n', 'a']], .seqs [.lit ['p', 'r', 'i', 'j', 'e', ' '], .number, .lit [' ', 'g', 'o', 'd', 'i', 'n', 'a']], .seqs [.lit ['p', 'r', 'i', 'j', 'e', ' '], .number, .lit [' ', 'g', 'o', 'd', 'i', 'n', 'e']], .seqs [.lit ['p', 'r', 'i', 'j', 'e', ' '], .number, .lit [' ', 'g', 'o', 'd', 'i', 'n', 'u']], .seqs [.lit ['p', 'r', 'i', 'j', 'e', ' '], .number, .lit [' ', 'm', 'i', 'n', 'u', 't', 'a']], .seqs [.lit ['p', 'r', 'i', 'j', 'e', ' '], .number, .lit [' ', 'm', 'i', 'n', 'u', 't', 'e']], .seqs [.lit ['p', 'r', 'i', 'j', 'e', ' '], .number, .lit [' ', 'm', 'i', 'n', 'u', 't', 'u']], .seqs [.lit ['p', 'r', 'i', 'j', 'e', ' '], .number, .lit [' ', 'm', 'j', 'e', 's', 'e', 'c']], .seqs [.lit ['p', 'r', 'i', 'j', 'e', ' '], .number, .lit [' ', 't', 'j', 'e', 'd', 'a', 'n']], .seqs [.lit ['p', 'r', 'i', 'j', 'e', ' '], .number, .lit [' ', 't', 'j', 'e', 'd', 'n', 'a']], .seqs [.lit ['p', 'r', 'i', 'j', 'e', ' '], .number, .lit [' ', 'd', 'a', 'n', 'a']], .seqs [.lit ['p', 'r', 'i', 'j', 'e', ' '], .number, .lit [' ', 's', 'a', 't', 'a']], .seqs [.lit ['p', 'r', 'i', 'j', 'e', ' '], .number, .lit [' ', 's', 'a', 't', 'i']], .seqs [.lit ['z', 'a', ' '], .number, .lit [' ', 'm', 'j', 'e', 's', 'e', 'c', 'a']], .seqs [.lit ['z', 'a', ' '], .number, .lit [' ', 'm', 'j', 'e', 's', 'e', 'c', 'i']], .seqs [.lit ['z', 'a', ' '], .number, .lit [' ', 's', 'e', 'k', 'u', 'n', 'd', 'e']], .seqs [.lit ['z', 'a', ' '], .number, .lit [' ', 's', 'e', 'k', 'u', 'n', 'd', 'i']], .seqs [.lit ['z', 'a', ' '], .number, .lit [' ', 's', 'e', 'k', 'u', 'n', 'd', 'u']], .seqs [.lit ['z', 'a', ' '], .number, .lit [' ', 't', 'j', 'e', 'd', 'a', 'n', 'a']], .seqs [.lit ['p', 'r', 'i', 'j', 'e', ' '], .number, .lit [' ', 'd', 'a', 'n']], .seqs [.lit ['p', 'r', 'i', 'j', 'e', ' '], .number, .lit [' ', 'm', 'i', 'n']], .seqs [.lit ['p', 'r', 'i', 'j', 'e', ' '], .number, .lit [' ', 's', 'a', 't']], .seqs [.lit ['z', 'a', ' '], .number, .lit [' ', 'g', 'o', 'd', 'i', 'n', 'a']], .seqs [.lit ['z', 'a', ' '], .number, .lit [' ', 'g', 'o', 'd', 'i', 'n', 'e']], .seqs [.lit ['z', 'a', ' '], .number, .lit [' ', 'g', 'o', 'd', 'i', 'n', 'u']], .seqs [.lit ['z', 'a', ' '], .number, .lit [' ', 'm', 'i', 'n', 'u', 't', 'a']], .seqs [.lit ['z', 'a', ' '], .number, .lit [' ', 'm', 'i', 'n', 'u', 't', 'e']], .seqs [.lit ['z', 'a', ' '], .number, .lit [' ', 'm', 'i', 'n', 'u', 't', 'u']], .seqs [.lit ['z', 'a', ' '], .number, .lit [' ', 'm', 'j', 'e', 's', 'e', 'c']], .seqs [.lit ['z', 'a', ' '], .number, .lit [' ', 't', 'j', 'e', 'd', 'a', 'n']], .seqs [.lit ['z', 'a', ' '], .number, .lit [' ', 't', 'j', 'e', 'd', 'n', 'a']], .seqs [.lit ['p', 'r', 'i', 'j', 'e', ' '], .number, .lit [' ', 'm', 'j']], .seqs [.lit ['p', 'r', 'i', 'j', 'e', ' '], .number, .lit [' ', 't', 'j']], .seqs [.lit ['p', 'r', 'i', 'j', 'e', ' '], .number, .lit [' ', 'd']], .seqs [.lit ['p', 'r', 'i', 'j', 'e', ' '], .number, .lit [' ', 'g']], .seqs [.lit ['p', 'r', 'i', 'j', 'e', ' '], .number, .lit [' ', 'h']], .seqs [.lit ['p', 'r', 'i', 'j', 'e', ' '], .number, .lit [' ', 's']], .seqs [.lit ['z', 'a', ' '], .number, .lit [' ', 'd', 'a', 'n', 'a']], .seqs [.lit ['z', 'a', ' '], .number, .lit [' ', 's', 'a', 't', 'a']], .seqs [.lit ['z', 'a', ' '], .number, .lit [' ', 's', 'a', 't', 'i']], .seqs [.lit ['z', 'a', ' '], .number, .lit [' ', 'd', 'a', 'n']], .seqs [.lit ['z', 'a', ' '], .number, .lit [' ', 'm', 'i', 'n']], .seqs [.lit ['z', 'a', ' '], .number, .lit [' ', 's', 'a', 't']], .seqs [.lit ['z', 'a', ' '], .number, .lit [' ', 'm', 'j']], .seqs [.lit ['z', 'a', ' '], .number, .lit [' ', 't', 'j']], .seqs [.lit ['z', 'a', ' '], .number, .lit [' ', 'd']], .seqs [.lit ['z', 'a', ' '], .number, .lit [' ', 'g']], .seqs [.lit ['z', 'a', ' '], .number, .lit [' ', 'h']], .seqs [.lit ['z', 'a', ' '], .number, .lit [' ', 's']]]), .eos]),
  knownWords :=
   [['s', 'l', 'j', 'e', 'd', 'e', 'c', 'e', 'g', ' ', 'm', 'j', 'e', 's', 'e', 'c', 'a'], ['s', 'l', 'j', 'e', 'd', 'e', 'c', 'e', 'm', ' ', 'm', 'j', 'e', 's', 'e', 'c', 'u'], ['s', 'l', 'j', 'e', 'd', 'e', 'c', 'e', 'g', ' ', 't', 'j', 'e', 'd', 'n', 'a'], ['s', 'l', 'j', 'e', 'd', 'e', 'c', 'e', 'm', ' ', 't', 'j', 'e', 'd', 'n', 'u'], ['s', 'l', 'j', 'e', 'd', 'e', 'c', 'o', 'j', ' ', 'g', 'o', 'd', 'i', 'n', 'i'], ['p', 'r', 'o', 's', 'l', 'o', 'g', ' ', 'm', 'j', 'e', 's', 'e', 'c', 'a'], ['p', 'r', 'o', 's', 'l', 'o', 'm', ' ', 'm', 'j', 'e', 's', 'e', 'c', 'u'], ['s', 'l', 'j', 'e', 'd', 'e', 'c', 'a', ' ', 'g', 'o', 'd', 'i', 'n', 'a'], ['s', 'l', 'j', 'e', 'd', 'e', 'c', 'e', ' ', 'g', 'o', 'd', 'i', 'n', 'e'], ['s', 'l', 'j', 'e', 'd', 'e', 'c', 'i', ' ', 'm', 'j', 'e', 's', 'e', 'c'], ['s', 'l', 'j', 'e', 'd', 'e', 'c', 'i', ' ', 't', 'j', 'e', 'd', 'a', 'n'], ['i', 'd', 'u', 'c', 'e', 'g', ' ', 'm', 'j', 'e', 's', 'e', 'c', 'a'], ['i', 'd', 'u', 'c', 'e', 'm', ' ', 'm', 'j', 'e', 's', 'e', 'c', 'u'], ['p', 'r', 'o', 's', 'l', 'o', 'g', ' ', 't', 'j', 'e', 'd', 'n', 'a'], ['p', 'r', 'o', 's', 'l', 'o', 'j', ' ', 'g', 'o', 'd', 'i', 'n', 'i'], ['p', 'r', 'o', 's', 'l', 'o', 'm', ' ', 't', 'j', 'e', 'd', 'n', 'u'], ['i', 'd', 'u', 'c', 'e', 'g', ' ', 't', 'j', 'e', 'd', 'n', 'a'], ['i', 'd', 'u', 'c', 'e', 'm', ' ', 't', 'j', 'e', 'd', 'n', 'u'], ['i', 'd', 'u', 'c', 'o', 'j', ' ', 'g', 'o', 'd', 'i', 'n', 'i'], ['p', 'r', 'o', 's', 'l', 'a', ' ', 'g', 'o', 'd', 'i', 'n', 'a'], ['p', 'r', 'o', 's', 'l', 'e', ' ', 'g', 'o', 'd', 'i', 'n', 'e'], ['p', 'r', 'o', 's', 'l', 'i', ' ', 'm', 'j', 'e', 's', 'e', 'c'], ['p', 'r', 'o', 's', 'l', 'i', ' ', 't', 'j', 'e', 'd', 'a', 'n'], ['i', 'd', 'u', 'c', 'a', ' ', 'g', 'o', 'd', 'i', 'n', 'a'], ['i', 'd', 'u', 'c', 'e', ' ', 'g', 'o', 'd', 'i', 'n', 'e'], ['i', 'd', 'u', 'c', 'i', ' ', 'm', 'j', 'e', 's', 'e', 'c'], ['i', 'd', 'u', 'c', 'i', ' ', 't', 'j', 'e', 'd', 'a', 'n'], ['s', 'l', 'j', 'e', 'd', 'e', 'c', 'a', ' ', 'g', 'o', 'd'], ['s', 'l', 'j', 'e', 'd', 'e', 'c', 'e', ' ', 'g', 'o', 'd'], ['o', 'v', 'a', 'j', ' ', 'm', 'j', 'e', 's', 'e', 'c'], ['o', 'v', 'a', 'j', ' ', 't', 'j', 'e', 'd', 'a', 'n'], ['p', 'o', 'n', 'e', 'd', 'j', 'e', 'l', 'j', 'a', 'k'], ['s', 'l', 'j', 'e', 'd', 'e', 'c', 'i', ' ', 'm', 'j'], ['s', 'l', 'j', 'e', 'd', 'e', 'c', 'i', ' ', 't', 'j'], ['i', 'd', 'u', 'c', 'o', 'j', ' ', 'g', 'o', 'd'], ['l', 'i', 's', 't', 'o', 'p', 'a', 'd', 'o', 'm'], ['o', 'v', 'a', ' ', 'm', 'i', 'n', 'u', 't', 'a'], ['o', 'v', 'e', ' ', 'g', 'o', 'd', 'i', 'n', 'e'], ['p', 'r', 'e', 'k', 'o', 's', 'u', 't', 'r', 'a'], ['p', 'r', 'o', 's', 'l', 'e', ' ', 'g', 'o', 'd'], ['s', 'l', 'j', 'e', 'd', 'e', 'c', 'a', ' ', 'g'], ['s', 'l', 'j', 'e', 'd', 'e', 'c', 'e', ' ', 'g'], ['i', 'd', 'u', 'c', 'a', ' ', 'g', 'o', 'd'], ['i', 'd', 'u', 'c', 'e', ' ', 'g', 'o', 'd'], ['i', 'd', 'u', 'c', 'e', 'g', ' ', 'm', 'j'], ['i', 'd', 'u', 'c', 'e', 'g', ' ', 't', 'j'], ['i', 'd', 'u', 'c', 'e', 'm', ' ', 'm', 'j'], ['i', 'd', 'u', 'c', 'e', 'm', ' ', 't', 'j'], ['k', 'o', 'l', 'o', 'v', 'o', 'z', 'o', 'm'], ['l', 'i', 's', 't', 'o', 'p', 'a', 'd', 'a'], ['l', 'i', 's', 't', 'o', 'p', 'a', 'd', 'u'], ['p', 'r', 'e', 'k', 'j', 'u', 'c', 'e', 'r'], ['p', 'r', 'o', 's', 'i', 'n', 'c', 'e', 'm'], ['p', 'r', 'o', 's', 'l', 'i', ' ', 'm', 'j'], ['p', 'r', 'o', 's', 'l', 'i', ' ', 't', 'j'], ['s', 'i', 'j', 'e', 'c', 'n', 'j', 'e', 'm'], ['s', 't', 'u', 'd', 'e', 'n', 'o', 'g', 'a'], ['s', 't', 'u', 'd', 'e', 'n', 'o', 'm', 'e'], ['s', 't', 'u', 'd', 'e', 'n', 'o', 'm', 'u'], ['c', 'e', 't', 'v', 'r', 't', 'a', 'k'], ['d', 'o', 'g', 'o', 'd', 'i', 'n', 'e'], ['i', 'd', 'u', 'c', 'i', ' ', 'm', 'j'], ['i', 'd', 'u', 'c', 'i', ' ', 't', 'j'], ['i', 'd', 'u', 'c', 'o', 'j', ' ', 'g'], ['k', 'o', 'l', 'o', 'v', 'o', 'z', 'a'], ['k', 'o', 'l', 'o', 'v', 'o', 'z', 'u'], ['l', 'i', 's', 't', 'o', 'p', 'a', 'd'], ['n', 'a', 'g', 'o', 'd', 'i', 'n', 'u'], ['n', 'e', 'd', 'j', 'e', 'l', 'j', 'a'], ['o', 'v', 'a', 'j', ' ', 's', 'a', 't'], ['p', 'r', 'e', 'k', 'l', 'a', 'n', 'i'], ['p', 'r', 'o', 's', 'i', 'n', 'a', 'c'], ['p', 'r', 'o', 's', 'i', 'n', 'c', 'a'], ['p', 'r', 'o', 's', 'i', 'n', 'c', 'u'], ['p', 'r', 'o', 's', 'l', 'e', ' ', 'g'], ['s', 'i', 'j', 'e', 'c', 'a', 'n', 'j'], ['s', 'i', 'j', 'e', 'c', 'n', 'j', 'a'], ['s', 'i', 'j', 'e', 'c', 'n', 'j', 'u'], ['s', 't', 'u', 'd', 'e', 'n', 'i', 'm'], ['s', 't', 'u', 'd', 'e', 'n', 'o', 'g'], ['s', 't', 'u', 'd', 'e', 'n', 'o', 'm'], ['s', 'v', 'i', 'b', 'n', 'j', 'e', 'm'], ['t', 'r', 'a', 'v', 'n', 'j', 'e', 'm'], ['v', 'e', 'l', 'j', 'a', 'c', 'o', 'm'], ['i', 'd', 'u', 'c', 'a', ' ', 'g'], ['i', 'd', 'u', 'c', 'e', ' ', 'g'], ['k', 'o', 'l', 'o', 'v', 'o', 'z'], ['l', 'i', 'p', 'n', 'j', 'e', 'm'], ['o', 'v', 'a', 'j', ' ', 'm', 'j'], ['o', 'v', 'a', 'j', ' ', 't', 'j'], ['o', 'v', 'e', ' ', 'g', 'o', 'd'], ['o', 'z', 'u', 'j', 'k', 'o', 'm'], ['s', 'e', 'k', 'u', 'n', 'd', 'a'], ['s', 'r', 'i', 'j', 'e', 'd', 'a'], ['s', 'r', 'p', 'n', 'j', 'e', 'm'], ['s', 't', 'u', 'd', 'e', 'n', 'i'], ['s', 'v', 'i', 'b', 'a', 'n', 'j'], ['s', 'v', 'i', 'b', 'n', 'j', 'a'], ['s', 'v', 'i', 'b', 'n', 'j', 'u'], ['t', 'r', 'a', 'v', 'a', 'n', 'j'], ['t', 'r', 'a', 'v', 'n', 'j', 'a'], ['t', 'r', 'a', 'v', 'n', 'j', 'u'], ['v', 'e', 'l', 'j', 'a', 'c', 'a'], ['v', 'e', 'l', 'j', 'a', 'c', 'e'], ['v', 'e', 'l', 'j', 'a', 'c', 'i'], ['g', 'o', 'd', 'i', 'n', 'a'], ['l', 'i', 'p', 'a', 'n', 'j'], ['l', 'i', 'p', 'n', 'j', 'a'], ['l', 'i', 'p', 'n', 'j', 'u'], ['m', 'i', 'n', 'u', 't', 'a'], ['m', 'j', 'e', 's', 'e', 'c'], ['o', 'z', 'u', 'j', 'a', 'k'], ['o', 'z', 'u', 'j', 'k', 'a'], ['o', 'z', 'u', 'j', 'k', 'u'], ['r', 'u', 'j', 'n', 'o', 'm'], ['s', 'r', 'p', 'a', 'n', 'j'], ['s', 'r', 'p', 'n', 'j', 'a'], ['s', 'r', 'p', 'n', 'j', 'u'], ['s', 'u', 'b', 'o', 't', 'a'], ['t', 'j', 'e', 'd', 'a', 'n'], ['u', 't', 'o', 'r', 'a', 'k'], ['d', 'a', 'n', 'a', 's'], ['j', 'u', 'c', 'e', 'r'], ['o', 'v', 'e', ' ', 'g'], ['p', 'e', 't', 'a', 'k'], ['r', 'u', 'j', 'a', 'n'], ['r', 'u', 'j', 'n', 'a'], ['r', 'u', 'j', 'n', 'u'], ['s', 'u', 't', 'r', 'a'], ['l', 'a', 'n', 'i'], ['v', 'e', 'l', 'j'], ['c', 'e', 't'], ['d', 'a', 'n'], ['g', 'm', 't'], ['k', 'o', 'l'], ['l', 'i', 'p'], ['l', 'i', 's'], ['m', 'i', 'n'], ['n', 'e', 'd'], ['o', 'z', 'u'], ['p', 'e', 't'], ['p', 'o', 'n'], ['p', 'r', 'o'], ['r', 'u', 'j'], ['s', 'a', 'd'], ['s', 'a', 't'], ['s', 'i', 'j'], ['s', 'r', 'i'], ['s', 'r', 'p'], ['s', 't', 'u'], ['s', 'u', 'b'], ['s', 'v', 'i'], ['t', 'r', 'a'], ['u', 't', 'c'], ['u', 't', 'o'], ['a', 'm'], ['m', 'j'], ['p', 'm'], ['t', 'j'], [' '], ['\''], ['+'], [','], ['-'], ['.'], ['/'], [':'], [';'], ['@'], ['['], [']'], ['d'], ['g'], ['h'], ['m'], ['s'], ['u'], ['z'], ['|']] }

/-- internal/data/hr.go: `hr_BA_Locale`. -/
def hr_BALang : LangData := hr_BADict

/-- internal/data/hsb.go: `hsb_Locale`. -/
def hsbLang : LangData := { hsbDict with
  relativeRegexes :=
   [(.seqs [.lit ['p', 'r', 'e', 'd', ' '], .grp 1 (.number), .lit [' ', 't', 'y', 'd', 'z', 'e', 'n', 'j', 'e', 'm', 'i']], [.ref 1, .lit [' ', 'w', 'e', 'e', 'k', ' ', 'a', 'g', 'o']]),
    (.seqs [.lit ['p', 'r', 'e', 'd', ' '], .grp 1 (.number), .lit [' ', 'h', 'o', 'd', 'z', 'i', 'n', 'a', 'm', 'i']], [.ref 1, .lit [' ', 'h', 'o', 'u', 'r', ' ', 'a', 'g', 'o']]),
    (.seqs [.lit ['p', 'r', 'e', 'd', ' '], .grp 1 (.number), .lit [' ', 's', 'e', 'k', 'u', 'n', 'd', 'a', 'm', 'i']], [.ref 1, .lit [' ', 's', 'e', 'c', 'o', 'n', 'd', ' ', 'a', 'g', 'o']]),
    (.seqs [.lit ['p', 'r', 'e', 'd', ' '], .grp 1 (.number), .lit [' ', 't', 'y', 'd', 'z', 'e', 'n', 'j', 'o', 'm']], [.ref 1, .lit [' ', 'w', 'e', 'e', 'k', ' ', 'a', 'g', 'o']]),
    (.seqs [.lit ['p', 'r', 'e', 'd', ' '], .grp 1 (.number), .lit [' ', 'm', 'e', 's', 'a', 'c', 'a', 'm', 'i']], [.ref 1, .lit [' ', 'm', 'o', 'n', 't', 'h', ' ', 'a', 'g', 'o']]),
    (.seqs [.lit ['p', 'r', 'e', 'd', ' '], .grp 1 (.number), .lit [' ', 'm', 'i', 'n', 'u', 't', 'a', 'm', 'i']], [.ref 1, .lit [' ', 'm', 'i', 'n', 'u', 't', 'e', ' ', 'a', 'g', 'o']]),
    (.seqs [.lit ['p', 'r', 'e', 'd', ' '], .grp 1 (.number), .lit [' ', 'h', 'o', 'd', 'z', 'i', 'n', 'u']], [.ref 1, .lit [' ', 'h', 'o', 'u', 'r', ' ', 'a', 'g', 'o']]),
    (.seqs [.lit ['p', 'r', 'e', 'd', ' '], .grp 1 (.number), .lit [' ', 'm', 'e', 's', 'a', 'c', 'o', 'm']], [.ref 1, .lit [' ', 'm', 'o', 'n', 't', 'h', ' ', 'a', 'g', 'o']]),
    (.seqs [.lit ['p', 'r', 'e', 'd', ' '], .grp 1 (.number), .lit [' ', 's', 'e', 'k', 'u', 'n', 'd', 'u']], [.ref 1, .lit [' ', 's', 'e', 'c', 'o', 'n', 'd', ' ', 'a', 'g', 'o']]),
    (.seqs [.lit ['z', 'a', ' '], .grp 1 (.number), .lit [' ', 't', 'y', 'd', 'z', 'e', 'n', 'j', 'o', 'w']], [.lit ['i', 'n', ' '], .ref 1, .lit [' ', 'w', 'e', 'e', 'k']]),
    (.seqs [.lit ['p', 'r', 'e', 'd', ' '], .grp 1 (.number), .lit [' ', 'd', 'n', 'j', 'e', 'm', 'i']], [.ref 1, .lit [' ', 'd', 'a', 'y', ' ', 'a', 'g', 'o']]),
    (.seqs [.lit ['p', 'r', 'e', 'd', ' '], .grp 1 (.number), .lit [' ', 'l', 'e', 't', 'a', 'm', 'i']], [.ref 1, .lit [' ', 'y', 'e', 'a', 'r', ' ', 'a', 'g', 'o']]),
    (.seqs [.lit ['p', 'r', 'e', 'd', ' '], .grp 1 (.number), .lit [' ', 'm', 'i', 'n', 'u', 't', 'u']], [.ref 1, .lit [' ', 'm', 'i', 'n', 'u', 't', 'e', ' ', 'a', 'g', 'o']]),
    (.seqs [.lit ['z', 'a', ' '], .grp 1 (.number), .lit [' ', 's', 'e', 'k', 'u', 'n', 'd', 'o', 'w']], [.lit ['i', 'n', ' '], .ref 1, .lit [' ', 's', 'e', 'c', 'o', 'n', 'd']]),
    (.seqs [.lit ['p', 'r', 'e', 'd', ' '], .grp 1 (.number), .lit [' ', 'd', 'n', 'j', 'o', 'm']], [.ref 1, .lit [' ', 'd', 'a', 'y', ' ', 'a', 'g', 'o']]),
    (.seqs [.lit ['p', 'r', 'e', 'd', ' '], .grp 1 (.number), .lit [' ', 'l', 'e', 't', 'o', 'm']], [.ref 1, .lit [' ', 'y', 'e', 'a', 'r', ' ', 'a', 'g', 'o']]),
    (.seqs [.lit ['z', 'a', ' '], .grp 1 (.number), .lit [' ', 'h', 'o', 'd', 'z', 'i', 'n', 'u']], [.lit ['i', 'n', ' '], .ref 1, .lit [' ', 'h', 'o', 'u', 'r']]),
    (.seqs [.lit ['z', 'a', ' '], .grp 1 (.number), .lit [' ', 'm', 'e', 's', 'a', 'c', 'o', 'w']], [.lit ['i', 'n', ' '], .ref 1, .lit [' ', 'm', 'o', 'n', 't', 'h']]),
    (.seqs [.lit ['z', 'a', ' '], .grp 1 (.number), .lit [' ', 'm', 'i', 'n', 'u', 't', 'o', 'w']], [.lit ['i', 'n', ' '], .ref 1, .lit [' ', 'm', 'i', 'n', 'u', 't', 'e']]),
    (.seqs [.lit ['z', 'a', ' '], .grp 1 (.number), .lit [' ', 's', 'e', 'k', 'u', 'n', 'd', 'u']], [.lit ['i', 'n', ' '], .ref 1, .lit [' ', 's', 'e', 'c', 'o', 'n', 'd']]),
    (.seqs [.lit ['p', 'r', 'e', 'd', ' '], .grp 1 (.number), .lit [' ', 'h', 'o', 'd', 'z']], [.ref 1, .lit [' ', 'h', 'o', 'u', 'r', ' ', 'a', 'g', 'o']]),
    (.seqs [.lit ['p', 'r', 'e', 'd', ' '], .grp 1 (.number), .lit [' ', 't', 'y', 'd', 'z']], [.ref 1, .lit [' ', 'w', 'e', 'e', 'k', ' ', 'a', 'g', 'o']]),
    (.seqs [.lit ['z', 'a', ' '], .grp 1 (.number), .lit [' ', 'h', 'o', 'd', 'z', 'i', 'n']], [.lit ['i', 'n', ' '], .ref 1, .lit [' ', 'h', 'o', 'u', 'r']]),
    (.seqs [.lit ['z', 'a', ' '], .grp 1 (.number), .lit [' ', 'm', 'i', 'n', 'u', 't', 'u']], [.lit ['i', 'n', ' '], .ref 1, .lit [' ', 'm', 'i', 'n', 'u', 't', 'e']]),
    (.seqs [.lit ['z', 'a', ' '], .grp 1 (.number), .lit [' ', 't', 'y', 'd', 'z', 'e', 'n']], [.lit ['i', 'n', ' '], .ref 1, .lit [' ', 'w', 'e', 'e', 'k']]),
    (.seqs [.lit ['p', 'r', 'e', 'd', ' '], .grp 1 (.number), .lit [' ', 'd', 'n', 'j']], [.ref 1, .lit [' ', 'd', 'a', 'y', ' ', 'a', 'g', 'o']]),
    (.seqs [.lit ['p', 'r', 'e', 'd', ' '], .grp 1 (.number), .lit [' ', 'm', 'e', 's']], [.ref 1, .lit [' ', 'm', 'o', 'n', 't', 'h', ' ', 'a', 'g', 'o']]),
    (.seqs [.lit ['p', 'r', 'e', 'd', ' '], .grp 1 (.number), .lit [' ', 'm', 'i', 'n']], [.ref 1, .lit [' ', 'm', 'i', 'n', 'u', 't', 'e', ' ', 'a', 'g', 'o']]),
    (.seqs [.lit ['p', 'r', 'e', 'd', ' '], .grp 1 (.number), .lit [' ', 's', 'e', 'k']], [.ref 1, .lit [' ', 's', 'e', 'c', 'o', 'n', 'd', ' ', 'a', 'g', 'o']]),
    (.seqs [.lit ['z', 'a', ' '], .grp 1 (.number), .lit [' ', 'd', 'n', 'j', 'o', 'w']], [.lit ['i', 'n', ' '], .ref 1, .lit [' ', 'd', 'a', 'y']]),
    (.seqs [.lit ['z', 'a', ' '], .grp 1 (.number), .lit [' ', 'm', 'e', 's', 'a', 'c']], [.lit ['i', 'n', ' '], .ref 1, .lit [' ', 'm', 'o', 'n', 't', 'h']]),
    (.seqs [.lit ['z', 'a', ' '], .grp 1 (.number), .lit [' ', 'd', 'z', 'e', 'n']], [.lit ['i', 'n', ' '], .ref 1, .lit [' ', 'd', 'a', 'y']]),
    (.seqs [.lit ['z', 'a', ' '], .grp 1 (.number), .lit [' ', 'h', 'o', 'd', 'z']], [.lit ['i', 'n', ' '], .ref 1, .lit [' ', 'h', 'o', 'u', 'r']]),
    (.seqs [.lit ['z', 'a', ' '], .grp 1 (.number), .lit [' ', 'l', 'e', 't', 'o']], [.lit ['i', 'n', ' '], .ref 1, .lit [' ', 'y', 'e', 'a', 'r']]),
    (.seqs [.lit ['z', 'a', ' '], .grp 1 (.number), .lit [' ', 't', 'y', 'd', 'z']], [.lit ['i', 'n', ' '], .ref 1, .lit [' ', 'w', 'e', 'e', 'k']]),
    (.seqs [.lit ['p', 'r', 'e', 'd', ' '], .grp 1 (.number), .lit [' ', 'd']], [.ref 1, .lit [' ', 'd', 'a', 'y', ' ', 'a', 'g', 'o']]),
    (.seqs [.lit ['p', 'r', 'e', 'd', ' '], .grp 1 (.number), .lit [' ', 'h']], [.ref 1, .lit [' ', 'h', 'o', 'u', 'r', ' ', 'a', 'g', 'o']]),
    (.seqs [.lit ['p', 'r', 'e', 'd', ' '], .grp 1 (.number), .lit [' ', 'l']], [.ref 1, .lit [' ', 'y', 'e', 'a', 'r', ' ', 'a', 'g', 'o']]),
    (.seqs [.lit ['p', 'r', 'e', 'd', ' '], .grp 1 (.number), .lit [' ', 'm']], [.ref 1, .lit [' ', 'm', 'i', 'n', 'u', 't', 'e', ' ', 'a', 'g', 'o']]),
    (.seqs [.lit ['p', 'r', 'e', 'd', ' '], .grp 1 (.number), .lit [' ', 's']], [.ref 1, .lit [' ', 's', 'e', 'c', 'o', 'n', 'd', ' ', 'a', 'g', 'o']]),
    (.seqs [.lit ['z', 'a', ' '], .grp 1 (.number), .lit [' ', 'd', 'n', 'j']], [.lit ['i', 'n', ' '], .ref 1, .lit [' ', 'd', 'a', 'y']]),
    (.seqs [.lit ['z', 'a', ' '], .grp 1 (.number), .lit [' ', 'l', 'e', 't']], [.lit ['i', 'n', ' '], .ref 1, .lit [' ', 'y', 'e', 'a', 'r']]),
    (.seqs [.lit ['z', 'a', ' '], .grp 1 (.number), .lit [' ', 'm', 'e', 's']], [.lit ['i', 'n', ' '], .ref 1, .lit [' ', 'm', 'o', 'n', 't', 'h']]),
    (.seqs [.lit ['z', 'a', ' '], .grp 1 (.number), .lit [' ', 'm', 'i', 'n']], [.lit ['i', 'n', ' '], .ref 1, .lit [' ', 'm', 'i', 'n', 'u', 't', 'e']]),
    (.seqs [.lit ['z', 'a', ' '], .grp 1 (.number), .lit [' ', 's', 'e', 'k']], [.lit ['i', 'n', ' '], .ref 1, .lit [' ', 's', 'e', 'c', 'o', 'n', 'd']]),
    (.seqs [.lit ['z', 'a', ' '], .grp 1 (.number), .lit [' ', 'd']], [.lit ['i', 'n', ' '], .ref 1, .lit [' ', 'd', 'a', 'y']]),
    (.seqs [.lit ['z', 'a', ' '], .grp 1 (.number), .lit [' ', 'h']], [.lit ['i', 'n', ' '], .ref 1, .lit [' ', 'h', 'o', 'u', 'r']]),
    (.seqs [.lit ['z', 'a', ' '], .grp 1 (.number), .lit [' ', 'l']], [.lit ['i', 'n', ' '], .ref 1, .lit [' ', 'y', 'e', 'a', 'r']]),
    (.seqs [.lit ['z', 'a', ' '], .grp 1 (.number), .lit [' ', 'm']], [.lit ['i', 'n', ' '], .ref 1, .lit [' ', 'm', 'i', 'n', 'u', 't', 'e']]),
    (.seqs [.lit ['z', 'a', ' '], .grp 1 (.number), .lit [' ', 's']], [.lit ['i', 'n', ' '], .ref 1, .lit [' ', 's', 'e', 'c', 'o', 'n', 'd']])],
  rxCombined := some (.seqs [.grp 1 (.alts [.bos, .cls true [.letter, .mark, .digit], .lit ['_']]), .grp 2 (.alts [.seqs [.lit ['p', 'r', 'e', 'd', ' '], .number, .lit [' ', 't', 'y', 'd', 'z', 'e', 'n', 'j', 'e', 'm', 'i']], .seqs [.lit ['p', 'r', 'e', 'd', ' '], .number, .lit [' ', 'h', 'o', 'd', 'z', 'i', 'n', 'a', 'm', 'i']], .seqs [.lit ['p', 'r', 'e', 'd', ' '], .number, .lit [' ', 's', 'e', 'k', 'u', 'n', 'd', 'a', 'm', 'i']], .seqs [.lit ['p', 'r', 'e', 'd', ' '], .number, .lit [' ', 't', 'y', 'd', 'z', 'e', 'n', 'j', 'o', 'm']], .seqs [.lit ['p', 'r', 'e', 'd', ' '], .number, .lit [' ', 'm', 'e', 's', 'a', 'c', 'a', 'm', 'i']], .seqs [.lit ['p', 'r', 'e', 'd', ' '], .number, .lit [' ', 'm', 'i', 'n', 'u', 't', 'a', 'm', 'i']], .seqs [.lit ['p', 'r', 'e', 'd', ' '], .number, .lit [' ', 'h', 'o', 'd', 'z', 'i', 'n', 'u']], .seqs [.lit ['p', 'r', 'e', 'd', ' '], .number, .lit [' ', 'm', 'e', 's', 'a', 'c', 'o', 'm']], .seqs [.lit ['p', 'r', 'e', 'd', ' '], .number, .lit [' ', 's', 'e', 'k', 'u', 'n', 'd', 'u']], .seqs [.lit ['z', 'a', ' '], .number, .lit [' ', 't', 'y', 'd', 'z', 'e', 'n', 'j', 'o', 'w']], .seqs [.lit ['p', 'r', 'e', 'd', ' '], .number, .lit [' ', 'd', 'n', 'j', 'e', 'm', 'i']], .seqs [.lit ['p', 'r', 'e', 'd', ' '], .number, .lit [' ', 'l', 'e', 't', 'a', 'm', 'i']], .seqs [.lit ['p', 'r', 'e', 'd', ' '], .number, .lit [' ', 'm', 'i', 'n', 'u', 't', 'u']], .seqs [.lit ['z', 'a', ' '], .number, .lit [' ', 's', 'e', 'k', 'u', 'n', 'd', 'o', 'w']], .seqs [.lit ['p', 'r', 'e', 'd', ' '], .number, .lit [' ', 'd', 'n', 'j', 'o', 'm']], .seqs [.lit ['p', 'r', 'e', 'd', ' '], .number, .lit [' ', 'l', 'e', 't', 'o', 'm']], .seqs [.lit ['z', 'a', ' '], .number, .lit [' ', 'h', 'o', 'd', 'z', 'i', 'n', 'u']], .seqs [.lit ['z', 'a', ' '], .number, .lit [' ', 'm', 'e', 's', 'a', 'c', 'o', 'w']], .seqs [.lit ['z', 'a', ' '], .number, .lit [' ', 'm', 'i', 'n', 'u', 't', 'o', 'w']], .seqs [.lit ['z', 'a', ' '], .number, .lit [' ', 's', 'e', 'k', 'u', 'n', 'd', 'u']], .seqs [.lit ['p', 'r', 'e', 'd', ' '], .number, .lit [' ', 'h', 'o', 'd', 'z']], .seqs [.lit ['p', 'r', 'e', 'd', ' '], .number, .lit [' ', 't', 'y', 'd', 'z']], .seqs [.lit ['z', 'a', ' '], .number, .lit [' ', 'h', 'o', 'd', 'z', 'i', 'n']], .seqs [.lit ['z', 'a', ' '], .number, .lit [' ', 'm', 'i', 'n', 'u', 't', 'u']], .seqs [.lit ['z', 'a', ' '], .number, .lit [' ', 't', 'y', 'd', 'z', 'e', 'n']], .seqs [.lit ['p', 'r', 'e', 'd', ' '], .number, .lit [' ', 'd', 'n', 'j']], .seqs [.lit ['p', 'r', 'e', 'd', ' '], .number, .lit [' ', 'm', 'e', 's']], .seqs [.lit ['p', 'r', 'e', 'd', ' '], .number, .lit [' ', 'm', 'i', 'n']], .seqs [.lit ['p', 'r', 'e', 'd', ' '], .number, .lit [' ', 's', 'e', 'k']], .seqs [.lit ['z', 'a', ' '], .number, .lit [' ', 'd', 'n', 'j', 'o', 'w']], .seqs [.lit ['z', 'a', ' '], .number, .lit [' ', 'm', 'e', 's', 'a', 'c']], .seqs [.lit ['z', 'a', ' '], .number, .lit [' ', 'd', 'z', 'e', 'n']], .seqs [.lit ['z', 'a', ' '], .number, .lit [' ', 'h', 'o', 'd', 'z']], .seqs [.lit ['z', 'a', ' '], .number, .lit [' ', 'l', 'e', 't', 'o']], .seqs [.lit ['z', 'a', ' '], .number, .lit [' ', 't', 'y', 'd', 'z']], .seqs [.lit ['p', 'r', 'e', 'd', ' '], .number, .lit [' ', 'd']], .seqs [.lit ['p', 'r', 'e', 'd', ' '], .number, .lit [' ', 'h']], .seqs [.lit ['p', 'r', 'e', 'd', ' '], .number, .lit [' ', 'l']], .seqs [.lit ['p', 'r', 'e', 'd', ' '], .number, .lit [' ', 'm']], .seqs [.lit ['p', 'r', 'e', 'd', ' '], .number, .lit [' ', 's']], .seqs [.lit ['z', 'a', ' '], .number, .lit [' ', 'd', 'n', 'j']], .seqs [.lit ['z', 'a', ' '], .number, .lit [' ', 'l', 'e', 't']], .seqs [.lit ['z', 'a', ' '], .number, .lit [' ', 'm', 'e', 's']], .seqs [.lit ['z', 'a', ' '], .number, .lit [' ', 'm', 'i', 'n']], .seqs [.lit ['z', 'a', ' '], .number, .lit [' ', 's', 'e', 'k']], .seqs [.lit ['z', 'a', ' '], .number, .lit [' ', 'd']], .seqs [.lit ['z', 'a', ' '], .number, .lit [' ', 'h']], .seqs [.lit ['z', 'a', ' '], .number, .lit [' ', 'l']], .seqs [.lit ['z', 'a', ' '], .number, .lit [' ', 'm']], .seqs [.lit ['z', 'a', ' '], .number, .lit [' ', 's']]]), .grp 3 (.alts [.eos, .cls true [.letter, .mark, .digit], .lit ['_']])], 3),
  rxExact := some (.seqs [.bos, .grp 1 (.alts [.seqs [.lit ['p', 'r', 'e', 'd', ' '], .number, .lit [' ', 't', 'y', 'd', 'z', 'e', 'n', 'j', 'e', 'm', 'i']], .seqs [.lit ['p', 'r', 'e', 'd', ' '], .number, .lit [' ', 'h', 'o', 'd', 'z', 'i', 'n', 'a', 'm', 'i']], .seqs [.lit ['p', 'r', 'e', 'd', ' '], .number, .lit [' ', 's', 'e', 'k', 'u', 'n', 'd', 'a', 'm', 'i']], .seqs [.lit ['p', 'r', 'e', 'd', ' '], .number, .lit [' ', 't', 'y', 'd', 'z', 'e', 'n', 'j', 'o', 'm']], .seqs [.lit ['p', 'r', 'e', 'd', ' '], .number, .lit [' ', 'm', 'e', 's', 'a', 'c', 'a', 'm', 'i']], .seqs [.lit ['p', 'r', 'e', 'd', ' '], .number, .lit [' ', 'm', 'i', 'n', 'u', 't', 'a', 'm', 'i']], .seqs [.lit ['p', 'r', 'e', 'd', ' '], .number, .lit [' ', 'h', 'o', 'd', 'z', 'i', 'n', 'u']], .seqs [.lit ['p', 'r', 'e', 'd', ' '], .number, .lit [' ', 'm', 'e', 's', 'a', 'c', 'o', 'm']], .seqs [.lit ['p', 'r', 'e', 'd', ' '], .number, .lit [' ', 's', 'e', 'k', 'u', 'n', 'd', 'u']], .seqs [.lit ['z', 'a', ' '], .number, .lit [' ', 't', 'y', 'd', 'z', 'e', 'n', 'j', 'o', 'w']], .seqs [.lit ['p', 'r', 'e', 'd', ' '], .number, .lit [' ', 'd', 'n', 'j', 'e', 'm', 'i']], .seqs [.lit ['p', 'r', 'e', 'd', ' '], .number, .lit [' ', 'l', 'e', 't', 'a', 'm', 'i']], .seqs [.lit ['p', 'r', 'e', 'd', ' '], .number, .lit [' ', 'm', 'i', 'n', 'u', 't', 'u']], .seqs [.lit ['z', 'a', ' '], .number, .lit [' ', 's', 'e', 'k', 'u', 'n', 'd', 'o', 'w']], .seqs [.lit ['p', 'r', 'e', 'd', ' '], .number, .lit [' ', 'd', 'n', 'j', 'o', 'm']], .seqs [.lit ['p', 'r', 'e', 'd', ' '], .number, .lit [' ', 'l', 'e', 't', 'o', 'm']], .seqs [.lit ['z', 'a', ' '], .number, .lit [' ', 'h', 'o', 'd', 'z', 'i', 'n', 'u']], .seqs [.lit ['z', 'a', ' '], .number, .lit [' ', 'm', 'e', 's', 'a', 'c', 'o', 'w']], .seqs [.lit ['z', 'a', ' '], .number, .lit [' ', 'm', 'i', 'n', 'u', 't', 'o', 'w']], .seqs [.lit ['z', 'a', ' '], .number, .lit [' ', 's', 'e', 'k', 'u', 'n', 'd', 'u']], .seqs [.lit ['p', 'r', 'e', 'd', ' '], .number, .lit [' ', 'h', 'o', 'd', 'z']], .seqs [.lit ['p', 'r', 'e', 'd', ' '], .number, .lit [' ', 't', 'y', 'd', 'z']], .seqs [.lit ['z', 'a', ' '], .number, .lit [' ', 'h', 'o', 'd', 'z', 'i', 'n']], .seqs [.lit ['z', 'a', ' '], .number, .lit [' ', 'm', 'i', 'n', 'u', 't', 'u']], .seqs [.lit ['z', 'a', ' '], .number, .lit [' ', 't', 'y', 'd', 'z', 'e', 'n']], .seqs [.lit ['p', 'r', 'e', 'd', ' '], .number, .lit [' ', 'd', 'n', 'j']], .seqs [.lit ['p', 'r', 'e', 'd', ' '], .number, .lit [' ', 'm', 'e', 's']], .seqs [.lit ['p', 'r', 'e', 'd', ' '], .number, .lit [' ', 'm', 'i', 'n']], .seqs [.lit ['p', 'r', 'e', 'd', ' '], .number, .lit [' ', 's', 'e', 'k']], .seqs [.lit ['z', 'a', ' '], .number, .lit [' ', 'd', 'n', 'j', 'o', 'w']], .seqs [.lit ['z', 'a', ' '], .number, .lit [' ', 'm', 'e', 's', 'a', 'c']], .seqs [.lit ['z', 'a', ' '], .number, .lit [' ', 'd', 'z', 'e', 'n']], .seqs [.lit ['z', 'a', ' '], .number, .lit [' ', 'h', 'o', 'd', 'z']], .seqs [.lit ['z', 'a', ' '], .number, .lit [' ', 'l', 'e', 't', 'o']], .seqs [.lit ['z', 'a', ' '], .number, .lit [' ', 't', 'y', 'd', 'z']], .seqs [.lit ['p', 'r', 'e', 'd', ' '], .number, .lit [' ', 'd']], .seqs [.lit ['p', 'r', 'e', 'd', ' '], .number, .lit [' ', 'h']], .seqs [.lit ['p', 'r', 'e', 'd', ' '], .number, .lit [' ', 'l']], .seqs [.lit ['p', 'r', 'e', 'd', ' '], .number, .lit [' ', 'm']], .seqs [.lit ['p', 'r', 'e', 'd', ' '], .number, .lit [' ', 's']], .seqs [.lit ['z', 'a', ' '], .number, .lit [' ', 'd', 'n', 'j']], .seqs [.lit ['z', 'a', ' '], .number, .lit [' ', 'l', 'e', 't']], .seqs [.lit ['z', 'a', ' '], .number, .lit [' ', 'm', 'e', 's']], .seqs [.lit ['z', 'a', ' '], .number, .lit [' ', 'm', 'i', 'n']], .seqs [.lit ['z', 'a', ' '], .number, .lit [' ', 's', 'e', 'k']], .seqs [.lit ['z', 'a', ' '], .number, .lit [' ', 'd']], .seqs [.lit ['z', 'a', ' '], .number, .lit [' ', 'h']], .seqs [.lit ['z', 'a', ' '], .number, .lit [' ', 'l']], .seqs [.lit ['z', 'a', ' '], .number, .lit [' ', 'm']], .seqs [.lit ['z', 'a', ' '], .number, .lit [' ', 's']]]), .eos]),
  knownWords :=
   [['p', 'r', 'i', 'c', 'h', 'o', 'd', 'n', 'y', ' ', 't', 'y', 'd', 'z', 'e', 'n'], ['p', 'r', 'i', 'c', 'h', 'o', 'd', 'n', 'y', ' ', 'm', 'e', 's', 'a', 'c'], ['t', 'u', 't', 'o', 'n', ' ', 't', 'y', 'd', 'z', 'e', 'n'], ['z', 'a', 's', 'ł', 'y', ' ', 't', 'y', 'd', 'z', 'e', 'n'], ['t', 'h', 'i', 's', ' ', 'm', 'i', 'n', 'u', 't', 'e'], ['t', 'u', 't', 'o', 'n', ' ', 'm', 'e', 's', 'a', 'c'], ['z', 'a', 's', 'ł', 'y', ' ', 'm', 'e', 's', 'a', 'c'], ['d', 'o', 'p', 'o', 'ł', 'd', 'n', 'j', 'a'], ['p', 'o', 'p', 'o', 'ł', 'd', 'n', 'j', 'u'], ['s', 'e', 'p', 't', 'e', 'm', 'b', 'e', 'r'], ['s', 'e', 'p', 't', 'e', 'm', 'b', 'r', 'a'], ['t', 'h', 'i', 's', ' ', 'h', 'o', 'u', 'r'], ['d', 'e', 'c', 'e', 'm', 'b', 'e', 'r'], ['d', 'e', 'c', 'e', 'm', 'b', 'r', 'a'], ['f', 'e', 'b', 'r', 'u', 'a', 'r', 'a'], ['n', 'j', 'e', 'd', 'z', 'e', 'l', 'a'], ['n', 'o', 'w', 'e', 'm', 'b', 'e', 'r'], ['n', 'o', 'w', 'e', 'm', 'b', 'r', 'a'], ['p', 'o', 'n', 'd', 'z', 'e', 'l', 'a'], ['a', 'w', 'g', 'u', 's', 't', 'a'], ['f', 'e', 'b', 'r', 'u', 'a', 'r'], ['h', 'o', 'd', 'z', 'i', 'n', 'a'], ['j', 'a', 'n', 'u', 'a', 'r', 'a'], ['o', 'k', 't', 'o', 'b', 'e', 'r'], ['o', 'k', 't', 'o', 'b', 'r', 'a'], ['s', 'e', 'k', 'u', 'n', 'd', 'a'], ['s', 't', 'w', 'o', 'r', 't', 'k'], ['a', 'p', 'r', 'y', 'l', 'a'], ['a', 'w', 'g', 'u', 's', 't'], ['d', 'z', 'e', 'n', 's', 'a'], ['j', 'a', 'n', 'u', 'a', 'r'], ['j', 'u', 'l', 'i', 'j', 'a'], ['j', 'u', 'n', 'i', 'j', 'a'], ['m', 'i', 'n', 'u', 't', 'a'], ['s', 'o', 'b', 'o', 't', 'a'], ['s', 'r', 'j', 'e', 'd', 'a'], ['t', 'y', 'd', 'z', 'e', 'n'], ['w', 'u', 't', 'o', 'r', 'a'], ['a', 'p', 'r', 'y', 'l'], ['j', 'u', 'l', 'i', 'j'], ['j', 'u', 'n', 'i', 'j'], ['j', 'u', 't', 'r', 'e'], ['k', 'l', 'e', 't', 'u'], ['l', 'e', 't', 's', 'a'], ['m', 'e', 'r', 'c', 'a'], ['m', 'e', 's', 'a', 'c'], ['p', 'j', 'a', 't', 'k'], ['w', 'c', 'e', 'r', 'a'], ['d', 'z', 'e', 'n'], ['h', 'o', 'd', 'z'], ['l', 'e', 't', 'o'], ['l', 'o', 'n', 'i'], ['m', 'e', 'j', 'a'], ['m', 'e', 'j', 'e'], ['m', 'e', 'r', 'c'], ['t', 'y', 'd', 'z'], ['a', 'p', 'r'], ['a', 'w', 'g'], ['d', 'e', 'c'], ['f', 'e', 'b'], ['g', 'm', 't'], ['j', 'a', 'n'], ['j', 'u', 'l'], ['j', 'u', 'n'], ['m', 'e', 'j'], ['m', 'e', 'r'], ['m', 'e', 's'], ['m', 'i', 'n'], ['n', 'j', 'e'], ['n', 'o', 'w'], ['o', 'k', 't'], ['p', 'j', 'a'], ['p', 'o', 'n'], ['s', 'e', 'k'], ['s', 'e', 'p'], ['s', 'o', 'b'], ['s', 'r', 'j'], ['s', 't', 'w'], ['u', 't', 'c'], ['w', 'u', 't'], ['a', 'm'], ['p', 'm'], [' '], ['\''], ['+'], [','], ['-'], ['.'], ['/'], [':'], [';'], ['@'], ['['], [']'], ['d'], ['h'], ['l'], ['m'], ['s'], ['z'], ['|']] }

/-- internal/data/hu.go: `hu_Locale`. -/
def huLang : LangData := { huDict with
  simplifications :=
   [(.seqs [.grp 1 (.alts [.bos, .noWord]), .lit ['e', 'g', 'y'], .grp 2 (.alts [.eos, .noWord])], [.ref 1, .lit ['1'], .ref 2])],
  relativeRegexes :=
   [(.seqs [.grp 1 (.number), .lit [' ', 'm', 'a', 's', 'o', 'd', 'p', 'e', 'r', 'c', 'c', 'e', 'l', ' ', 'e', 'z', 'e', 'l', 'o', 't', 't']], [.ref 1, .lit [' ', 's', 'e', 'c', 'o', 'n', 'd', ' ', 'a', 'g', 'o']]),
    (.seqs [.grp 1 (.number), .lit [' ', 'h', 'o', 'n', 'a', 'p', 'p', 'a', 'l', ' ', 'e', 'z', 'e', 'l', 'o', 't', 't']], [.ref 1, .lit [' ', 'm', 'o', 'n', 't', 'h', ' ', 'a', 'g', 'o']]),
    (.seqs [.grp 1 (.number), .lit [' ', 'm', 'a', 's', 'o', 'd', 'p', 'e', 'r', 'c', ' ', 'm', 'u', 'l', 'v', 'a']], [.lit ['i', 'n', ' '], .ref 1, .lit [' ', 's', 'e', 'c', 'o', 'n', 'd']]),
    (.seqs [.grp 1 (.number), .lit [' ', 'p', 'e', 'r', 'c', 'c', 'e', 'l', ' ', 'e', 'z', 'e', 'l', 'o', 't', 't']], [.ref 1, .lit [' ', 'm', 'i', 'n', 'u', 't', 'e', ' ', 'a', 'g', 'o']]),
    (.seqs [.grp 1 (.number), .lit [' ', 'h', 'e', 't', 't', 'e', 'l', ' ', 'e', 'z', 'e', 'l', 'o', 't', 't']], [.ref 1, .lit [' ', 'w', 'e', 'e', 'k', ' ', 'a', 'g', 'o']]),
    (.seqs [.grp 1 (.number), .lit [' ', 'n', 'a', 'p', 'p', 'a', 'l', ' ', 'e', 'z', 'e', 'l', 'o', 't', 't']], [.ref 1, .lit [' ', 'd', 'a', 'y', ' ', 'a', 'g', 'o']]),
    (.seqs [.grp 1 (.number), .lit [' ', 'o', 'r', 'a', 'v', 'a', 'l', ' ', 'e', 'z', 'e', 'l', 'o', 't', 't']], [.ref 1, .lit [' ', 'h', 'o', 'u', 'r', ' ', 'a', 'g', 'o']]),
    (.seqs [.grp 1 (.number), .lit [' ', 'e', 'v', 'v', 'e', 'l', ' ', 'e', 'z', 'e', 'l', 'o', 't', 't']], [.ref 1, .lit [' ', 'y', 'e', 'a', 'r', ' ', 'a', 'g', 'o']]),
    (.seqs [.grp 1 (.number), .lit [' ', 'h', 'o', 'n', 'a', 'p', ' ', 'm', 'u', 'l', 'v', 'a']], [.lit ['i', 'n', ' '], .ref 1, .lit [' ', 'm', 'o', 'n', 't', 'h']]),
    (.seqs [.grp 1 (.number), .lit [' ', 'p', 'e', 'r', 'c', ' ', 'm', 'u', 'l', 'v', 'a']], [.lit ['i', 'n', ' '], .ref 1, .lit [' ', 'm', 'i', 'n', 'u', 't', 'e']]),
    (.seqs [.grp 1 (.number), .lit [' ', 'h', 'e', 't', ' ', 'm', 'u', 'l', 'v', 'a']], [.lit ['i', 'n', ' '], .ref 1, .lit [' ', 'w', 'e', 'e', 'k']]),
    (.seqs [.grp 1 (.number), .lit [' ', 'n', 'a', 'p', ' ', 'm', 'u', 'l', 'v', 'a']], [.lit ['i', 'n', ' '], .ref 1, .lit [' ', 'd', 'a', 'y']]),
    (.seqs [.grp 1 (.number), .lit [' ', 'o', 'r', 'a', ' ', 'm', 'u', 'l', 'v', 'a']], [.lit ['i', 'n', ' '], .ref 1, .lit [' ', 'h', 'o', 'u', 'r']]),
    (.seqs [.grp 1 (.number), .lit [' ', 'e', 'v', ' ', 'm', 'u', 'l', 'v', 'a']], [.lit ['i', 'n', ' '], .ref 1, .lit [' ', 'y', 'e', 'a', 'r']]),
    (.seqs [.grp 1 (.number), .lit [' ', 'n', 'a', 'p', 'j', 'a']], [.ref 1, .lit [' ', 'd', 'a', 'y', ' ', 'a', 'g', 'o']])],
  rxCombined := some (.seqs [.grp 1 (.alts [.bos, .cls true [.letter, .mark, .digit], .lit ['_']]), .grp 2 (.alts [.seqs [.number, .lit [' ', 'm', 'a', 's', 'o', 'd', 'p', 'e', 'r', 'c', 'c', 'e', 'l', ' ', 'e', 'z', 'e', 'l', 'o', 't', 't']], .seqs [.number, .lit [' ', 'h', 'o', 'n', 'a', 'p', 'p', 'a', 'l', ' ', 'e', 'z', 'e', 'l', 'o', 't', 't']], .seqs [.number, .lit [' ', 'm', 'a', 's', 'o', 'd', 'p', 'e', 'r', 'c', ' ', 'm', 'u', 'l', 'v', 'a']], .seqs [.number, .lit [' ', 'p', 'e', 'r', 'c', 'c', 'e', 'l', ' ', 'e', 'z', 'e', 'l', 'o', 't', 't']], .seqs [.number, .lit [' ', 'h', 'e', 't', 't', 'e', 'l', ' ', 'e', 'z', 'e', 'l', 'o', 't', 't']], .seqs [.number, .lit [' ', 'n', 'a', 'p', 'p', 'a', 'l', ' ', 'e', 'z', 'e', 'l', 'o', 't', 't']], .seqs [.number, .lit [' ', 'o', 'r', 'a', 'v', 'a', 'l', ' ', 'e', 'z', 'e', 'l', 'o', 't', 't']], .seqs [.number, .lit [' ', 'e', 'v', 'v', 'e', 'l', ' ', 'e', 'z', 'e', 'l', 'o', 't', 't']], .seqs [.number, .lit [' ', 'h', 'o', 'n', 'a', 'p', ' ', 'm', 'u', 'l', 'v', 'a']], .seqs [.number, .lit [' ', 'p', 'e', 'r', 'c', ' ', 'm', 'u', 'l', 'v', 'a']], .seqs [.number, .lit [' ', 'h', 'e', 't', ' ', 'm', 'u', 'l', 'v', 'a']], .seqs [.number, .lit [' ', 'n', 'a', 'p', ' ', 'm', 'u', 'l', 'v', 'a']], .seqs [.number, .lit [' ', 'o', 'r', 'a', ' ', 'm', 'u', 'l', 'v', 'a']], .seqs [.number, .lit [' ', 'e', 'v', ' ', 'm', 'u', 'l', 'v', 'a']], .seqs [.number, .lit [' ', 'n', 'a', 'p', 'j', 'a']]]), .grp 3 (.alts [.eos, .cls true [.letter, .mark, .digit], .lit ['_']])], 3),
  rxExact := some (.seqs [.bos, .grp 1 (.alts [.seqs [.number, .lit [' ', 'm', 'a', 's', 'o', 'd', 'p', 'e', 'r', 'c', 'c', 'e', 'l', ' ', 'e', 'z', 'e', 'l', 'o', 't', 't']], .seqs [.number, .lit [' ', 'h', 'o', 'n', 'a', 'p', 'p', 'a', 'l', ' ', 'e', 'z', 'e', 'l', 'o', 't', 't']], .seqs [.number, .lit [' ', 'm', 'a', 's', 'o', 'd', 'p', 'e', 'r', 'c', ' ', 'm', 'u', 'l', 'v', 'a']], .seqs [.number, .lit [' ', 'p', 'e', 'r', 'c', 'c', 'e', 'l', ' ', 'e', 'z', 'e', 'l', 'o', 't', 't']], .seqs [.number, .lit [' ', 'h', 'e', 't', 't', 'e', 'l', ' ', 'e', 'z', 'e', 'l', 'o', 't', 't']], .seqs [.number, .lit [' ', 'n', 'a', 'p', 'p', 'a', 'l', ' ', 'e', 'z', 'e', 'l', 'o', 't', 't']], .seqs [.number, .lit [' ', 'o', 'r', 'a', 'v', 'a', 'l', ' ', 'e', 'z', 'e', 'l', 'o', 't', 't']], .seqs [.number, .lit [' ', 'e', 'v', 'v', 'e', 'l', ' ', 'e', 'z', 'e', 'l', 'o', 't', 't']], .seqs [.number, .lit [' ', 'h', 'o', 'n', 'a', 'p', ' ', 'm', 'u', 'l', 'v', 'a']], .seqs [.number, .lit [' ', 'p', 'e', 'r', 'c', ' ', 'm', 'u', 'l', 'v', 'a']], .seqs [.number, .lit [' ', 'h', 'e', 't', ' ', 'm', 'u', 'l', 'v', 'a']], .seqs [.number, .lit [' ', 'n', 'a', 'p', ' ', 'm', 'u', 'l', 'v', 'a']], .seqs [.number, .lit [' ', 'o', 'r', 'a', ' ', 'm', 'u', 'l', 'v', 'a']], .seqs [.number, .lit [' ', 'e', 'v', ' ', 'm', 'u', 'l', 'v', 'a']], .seqs [.number, .lit [' ', 'n', 'a', 'p', 'j', 'a']]]), .eos]),
  knownWords :=
   [['e', 'b', 'b', 'e', 'n', ' ', 'a', ' ', 'p', 'e', 'r', 'c', 'b', 'e', 'n'], ['e', 'b', 'b', 'e', 'n', ' ', 'a', 'z', ' ', 'o', 'r', 'a', 'b', 'a', 'n'], ['k', 'o', 'v', 'e', 't', 'k', 'e', 'z', 'o', ' ', 'h', 'o', 'n', 'a', 'p'], ['k', 'o', 'v', 'e', 't', 'k', 'e', 'z', 'o', ' ', 'h', 'e', 't'], ['k', 'o', 'v', 'e', 't', 'k', 'e', 'z', 'o', ' ', 'e', 'v'], ['m', 'a', 's', 'o', 'd', 'p', 'e', 'r', 'c', 'c', 'e', 'l'], ['m', 'a', 's', 'o', 'd', 'p', 'e', 'r', 'c', 't', 'o', 'l'], ['e', 'l', 'o', 'z', 'o', ' ', 'h', 'o', 'n', 'a', 'p'], ['m', 'a', 's', 'o', 'd', 'p', 'e', 'r', 'c', 'e', 'k'], ['m', 'a', 's', 'o', 'd', 'p', 'e', 'r', 'c', 'i', 'g'], ['t', 'e', 'g', 'n', 'a', 'p', 'e', 'l', 'o', 't', 't'], ['e', 'z', ' ', 'a', ' ', 'h', 'o', 'n', 'a', 'p'], ['m', 'a', 's', 'o', 'd', 'p', 'e', 'r', 'c', 'e'], ['s', 'z', 'e', 'p', 't', 'e', 'm', 'b', 'e', 'r'], ['a', 'u', 'g', 'u', 's', 'z', 't', 'u', 's'], ['c', 's', 'u', 't', 'o', 'r', 't', 'o', 'k'], ['e', 'l', 'o', 'z', 'o', ' ', 'h', 'e', 't'], ['m', 'a', 's', 'o', 'd', 'p', 'e', 'r', 'c'], ['d', 'e', 'c', 'e', 'm', 'b', 'e', 'r'], ['e', 'l', 'o', 'z', 'o', ' ', 'e', 'v'], ['e', 'z', ' ', 'a', ' ', 'h', 'e', 't'], ['e', 'z', ' ', 'a', 'z', ' ', 'e', 'v'], ['h', 'o', 'n', 'a', 'p', 'p', 'a', 'l'], ['n', 'o', 'v', 'e', 'm', 'b', 'e', 'r'], ['v', 'a', 's', 'a', 'r', 'n', 'a', 'p'], ['a', 'p', 'r', 'i', 'l', 'i', 's'], ['e', 'z', 'e', 'l', 'o', 't', 't'], ['f', 'e', 'b', 'r', 'u', 'a', 'r'], ['h', 'o', 'n', 'a', 'p', 'j', 'a'], ['h', 'o', 'n', 'a', 'p', 'o', 'k'], ['m', 'a', 'r', 'c', 'i', 'u', 's'], ['o', 'k', 't', 'o', 'b', 'e', 'r'], ['p', 'e', 'r', 'c', 'c', 'e', 'l'], ['p', 'e', 'r', 'c', 't', 'o', 'l'], ['s', 'z', 'o', 'm', 'b', 'a', 't'], ['h', 'e', 't', 't', 'e', 'l'], ['h', 'o', 'l', 'n', 'a', 'p'], ['j', 'a', 'n', 'u', 'a', 'r'], ['j', 'u', 'l', 'i', 'u', 's'], ['j', 'u', 'n', 'i', 'u', 's'], ['n', 'a', 'p', 'p', 'a', 'l'], ['o', 'r', 'a', 't', 'o', 'l'], ['o', 'r', 'a', 'v', 'a', 'l'], ['p', 'e', 'n', 't', 'e', 'k'], ['p', 'e', 'r', 'c', 'e', 'k'], ['p', 'e', 'r', 'c', 'i', 'g'], ['s', 'z', 'e', 'r', 'd', 'a'], ['t', 'e', 'g', 'n', 'a', 'p'], ['-', 'a', 'k', 'o', 'r'], ['-', 'a', 't', 'o', 'l'], ['-', 'e', 'k', 'o', 'r'], ['-', 'e', 't', 'o', 'l'], ['e', 'v', 'v', 'e', 'l'], ['h', 'e', 't', 'e', 'k'], ['h', 'e', 't', 'f', 'o'], ['h', 'o', 'n', 'a', 'p'], ['m', 'a', 'j', 'u', 's'], ['m', 'u', 'l', 'v', 'a'], ['n', 'a', 'p', 'j', 'a'], ['n', 'a', 'p', 'o', 'k'], ['o', 'r', 'a', 'i', 'g'], ['o', 'r', 'a', 'j', 'a'], ['p', 'e', 'r', 'c', 'e'], ['s', 'z', 'e', 'p', 't'], ['-', 'a', 'i', 'g'], ['-', 'e', 'i', 'g'], ['-', 'j', 'e', 'i'], ['-', 'k', 'o', 'r'], ['-', 't', 'o', 'l'], ['e', 'v', 'e', 'k'], ['f', 'e', 'b', 'r'], ['h', 'e', 't', 'e'], ['k', 'e', 'd', 'd'], ['m', 'a', 'r', 'c'], ['m', 'o', 's', 't'], ['o', 'r', 'a', 'k'], ['p', 'e', 'r', 'c'], ['v', 'i', 'i', 'i'], ['-', 'a', 'i'], ['-', 'a', 'n'], ['-', 'e', 'i'], ['-', 'e', 'n'], ['-', 'e', 's'], ['-', 'i', 'g'], ['-', 'j', 'e'], ['-', 'j', 'i'], ['-', 'o', 's'], ['a', 'p', 'r'], ['a', 'u', 'g'], ['d', 'e', 'c'], ['e', 'v', 'e'], ['f', 'e', 'b'], ['g', 'm', 't'], ['h', 'e', 't'], ['i', 'i', 'i'], ['j', 'a', 'n'], ['j', 'u', 'l'], ['j', 'u', 'n'], ['m', 'a', 'j'], ['m', 'a', 'r'], ['n', 'a', 'p'], ['n', 'o', 'v'], ['o', 'k', 't'], ['o', 'r', 'a'], ['s', 'z', 'e'], ['s', 'z', 'o'], ['u', 't', 'c'], ['v', 'a', 's'], ['v', 'i', 'i'], ['x', 'i', 'i'], ['-', 'a'], ['-', 'e'], ['-', 'i'], ['a', 'm'], ['c', 's'], ['d', 'e'], ['d', 'u'], ['e', 'v'], ['h', 'o'], ['i', 'i'], ['i', 'v'], ['i', 'x'], ['m', 'a'], ['m', 'p'], ['p', 'm'], ['v', 'i'], ['x', 'i'], [' '], ['\''], ['+'], [','], ['-'], ['.'], ['/'], [':'], [';'], ['@'], ['['], [']'], ['h'], ['i'], ['k'], ['o'], ['p'], ['v'], ['x'], ['z'], ['|']] }

/-- internal/data/hy.go: `hy_Locale`. -/
def hyLang : LangData := { hyDict with
  relativeRegexes :=
   [(.seqs [.grp 1 (.number), .lit [' '], .cls false [.rng 'Վ' 'Վ', .rng 'վ' 'վ'], .cls false [.rng 'Ա' 'Ա', .rng 'ա' 'ա'], .cls false [.rng 'Յ' 'Յ', .rng 'յ' 'յ'], .cls false [.rng 'Ր' 'Ր', .rng 'ր' 'ր'], .cls false [.rng 'Կ' 'Կ', .rng 'կ' 'կ'], .cls false [.rng 'Յ' 'Յ', .rng 'յ' 'յ'], .cls false [.rng 'Ա' 'Ա', .rng 'ա' 'ա'], .cls false [.rng 'Ն' 'Ն', .rng 'ն' 'ն'], .lit [' '], .cls false [.rng 'Ա' 'Ա', .rng 'ա' 'ա'], .cls false [.rng 'Ռ' 'Ռ', .rng 'ռ' 'ռ'], .cls false [.rng 'Ա' 'Ա', .rng 'ա' 'ա'], .cls false [.rng 'Ջ' 'Ջ', .rng 'ջ' 'ջ']], [.ref 1, .lit [' ', 's', 'e', 'c', 'o', 'n', 'd', ' ', 'a', 'g', 'o']]),
    (.seqs [.grp 1 (.number), .lit [' '], .cls false [.rng 'Շ' 'Շ', .rng 'շ' 'շ'], .cls false [.rng 'Ա' 'Ա', .rng 'ա' 'ա'], .cls false [.rng 'Բ' 'Բ', .rng 'բ' 'բ'], .cls false [.rng 'Ա' 'Ա', .rng 'ա' 'ա'], .cls false [.rng 'Թ' 'Թ', .rng 'թ' 'թ'], .lit [' '], .cls false [.rng 'Ա' 'Ա', .rng 'ա' 'ա'], .cls false [.rng 'Ռ' 'Ռ', .rng 'ռ' 'ռ'], .cls false [.rng 'Ա' 'Ա', .rng 'ա' 'ա'], .cls false [.rng 'Ջ' 'Ջ', .rng 'ջ' 'ջ']], [.ref 1, .lit [' ', 'w', 'e', 'e', 'k', ' ', 'a', 'g', 'o']]),
    (.seqs [.grp 1 (.number), .lit [' '], .cls false [.rng 'Վ' 'Վ', .rng 'վ' 'վ'], .cls false [.rng 'Ա' 'Ա', .rng 'ա' 'ա'], .cls false [.rng 'Յ' 'Յ', .rng 'յ' 'յ'], .cls false [.rng 'Ր' 'Ր', .rng 'ր' 'ր'], .cls false [.rng 'Կ' 'Կ', .rng 'կ' 'կ'], .cls false [.rng 'Յ' 'Յ', .rng 'յ' 'յ'], .cls false [.rng 'Ա' 'Ա', .rng 'ա' 'ա'], .cls false [.rng 'Ն' 'Ն', .rng 'ն' 'ն'], .cls false [.rng 'Ի' 'Ի', .rng 'ի' 'ի'], .cls false [.rng 'Ց' 'Ց', .rng 'ց' 'ց']], [.lit ['i', 'n', ' '], .ref 1, .lit [' ', 's', 'e', 'c', 'o', 'n', 'd']]),
    (.seqs [.grp 1 (.number), .lit [' '], .cls false [.rng 'Ա' 'Ա', .rng 'ա' 'ա'], .cls false [.rng 'Մ' 'Մ', .rng 'մ' 'մ'], .cls false [.rng 'Ի' 'Ի', .rng 'ի' 'ի'], .cls false [.rng 'Ս' 'Ս', .rng 'ս' 'ս'], .lit [' '], .cls false [.rng 'Ա' 'Ա', .rng 'ա' 'ա'], .cls false [.rng 'Ռ' 'Ռ', .rng 'ռ' 'ռ'], .cls false [.rng 'Ա' 'Ա', .rng 'ա' 'ա'], .cls false [.rng 'Ջ' 'Ջ', .rng 'ջ' 'ջ']], [.ref 1, .lit [' ', 'm', 'o', 'n', 't', 'h', ' ', 'a', 'g', 'o']]),
    (.seqs [.grp 1 (.number), .lit [' '], .cls false [.rng 'Տ' 'Տ', .rng 'տ' 'տ'], .cls false [.rng 'Ա' 'Ա', .rng 'ա' 'ա'], .cls false [.rng 'Ր' 'Ր', .rng 'ր' 'ր'], .cls false [.rng 'Ի' 'Ի', .rng 'ի' 'ի'], .lit [' '], .cls false [.rng 'Ա' 'Ա', .rng 'ա' 'ա'], .cls false [.rng 'Ռ' 'Ռ', .rng 'ռ' 'ռ'], .cls false [.rng 'Ա' 'Ա', .rng 'ա' 'ա'], .cls false [.rng 'Ջ' 'Ջ', .rng 'ջ' 'ջ']], [.ref 1, .lit [' ', 'y', 'e', 'a', 'r', ' ', 'a', 'g', 'o']]),
    (.seqs [.grp 1 (.number), .lit [' '], .cls false [.rng 'Ր' 'Ր', .rng 'ր' 'ր'], .cls false [.rng 'Ո' 'Ո', .rng 'ո' 'ո'], .cls false [.rng 'Պ' 'Պ', .rng 'պ' 'պ'], .cls false [.rng 'Ե' 'Ե', .rng 'ե' 'ե'], .lit [' '], .cls false [.rng 'Ա' 'Ա', .rng 'ա' 'ա'], .cls false [.rng 'Ռ' 'Ռ', .rng 'ռ' 'ռ'], .cls false [.rng 'Ա' 'Ա', .rng 'ա' 'ա'], .cls false [.rng 'Ջ' 'Ջ', .rng 'ջ' 'ջ']], [.ref 1, .lit [' ', 'm', 'i', 'n', 'u', 't', 'e', ' ', 'a', 'g', 'o']]),
    (.seqs [.grp 1 (.number), .lit [' '], .cls false [.rng 'Ժ' 'Ժ', .rng 'ժ' 'ժ'], .cls false [.rng 'Ա' 'Ա', .rng 'ա' 'ա'], .cls false [.rng 'Մ' 'Մ', .rng 'մ' 'մ'], .lit [' '], .cls false [.rng 'Ա' 'Ա', .rng 'ա' 'ա'], .cls false [.rng 'Ռ' 'Ռ', .rng 'ռ' 'ռ'], .cls false [.rng 'Ա' 'Ա', .rng 'ա' 'ա'], .cls false [.rng 'Ջ' 'Ջ', .rng 'ջ' 'ջ']], [.ref 1, .lit [' ', 'h', 'o', 'u', 'r', ' ', 'a', 'g', 'o']]),
    (.seqs [.grp 1 (.number), .lit [' '], .cls false [.rng 'Շ' 'Շ', .rng 'շ' 'շ'], .cls false [.rng 'Ա' 'Ա', .rng 'ա' 'ա'], .cls false [.rng 'Բ' 'Բ', .rng 'բ' 'բ'], .lit [' '], .cls false [.rng 'Ա' 'Ա', .rng 'ա' 'ա'], .cls false [.rng 'Ռ' 'Ռ', .rng 'ռ' 'ռ'], .cls false [.rng 'Ա' 'Ա', .rng 'ա' 'ա'], .cls false [.rng 'Ջ' 'Ջ', .rng 'ջ' 'ջ']], [.ref 1, .lit [' ', 'w', 'e', 'e', 'k', ' ', 'a', 'g', 'o']]),
    (.seqs [.grp 1 (.number), .lit [' '], .cls false [.rng 'Վ' 'Վ', .rng 'վ' 'վ'], .cls false [.rng 'Ր' 'Ր', .rng 'ր' 'ր'], .cls false [.rng 'Կ' 'Կ', .rng 'կ' 'կ'], .lit [' '], .cls false [.rng 'Ա' 'Ա', .rng 'ա' 'ա'], .cls false [.rng 'Ռ' 'Ռ', .rng 'ռ' 'ռ'], .cls false [.rng 'Ա' 'Ա', .rng 'ա' 'ա'], .cls false [.rng 'Ջ' 'Ջ', .rng 'ջ' 'ջ']], [.ref 1, .lit [' ', 's', 'e', 'c', 'o', 'n', 'd', ' ', 'a', 'g', 'o']]),
    (.seqs [.grp 1 (.number), .lit [' '], .cls false [.rng 'Շ' 'Շ', .rng 'շ' 'շ'], .cls false [.rng 'Ա' 'Ա', .rng 'ա' 'ա'], .cls false [.rng 'Բ' 'Բ', .rng 'բ' 'բ'], .lit [' '], .cls false [.rng 'Ա' 'Ա', .rng 'ա' 'ա'], .cls false [.rng 'Ն' 'Ն', .rng 'ն' 'ն'], .cls false [.rng 'Ց' 'Ց', .rng 'ց' 'ց']], [.lit ['i', 'n', ' '], .ref 1, .lit [' ', 'w', 'e', 'e', 'k']]),
    (.seqs [.grp 1 (.number), .lit [' '], .cls false [.rng 'Շ' 'Շ', .rng 'շ' 'շ'], .cls false [.rng 'Ա' 'Ա', .rng 'ա' 'ա'], .cls false [.rng 'Բ' 'Բ', .rng 'բ' 'բ'], .cls false [.rng 'Ա' 'Ա', .rng 'ա' 'ա'], .cls false [.rng 'Թ' 'Թ', .rng 'թ' 'թ'], .cls false [.rng 'Ի' 'Ի', .rng 'ի' 'ի'], .cls false [.rng 'Ց' 'Ց', .rng 'ց' 'ց']], [.lit ['i', 'n', ' '], .ref 1, .lit [' ', 'w', 'e', 'e', 'k']]),
    (.seqs [.grp 1 (.number), .lit [' '], .cls false [.rng 'Օ' 'Օ', .rng 'օ' 'օ'], .cls false [.rng 'Ր' 'Ր', .rng 'ր' 'ր'], .lit [' '], .cls false [.rng 'Ա' 'Ա', .rng 'ա' 'ա'], .cls false [.rng 'Ռ' 'Ռ', .rng 'ռ' 'ռ'], .cls false [.rng 'Ա' 'Ա', .rng 'ա' 'ա'], .cls false [.rng 'Ջ' 'Ջ', .rng 'ջ' 'ջ']], [.ref 1, .lit [' ', 'd', 'a', 'y', ' ', 'a', 'g', 'o']]),
    (.seqs [.grp 1 (.number), .lit [' '], .cls false [.rng 'Ժ' 'Ժ', .rng 'ժ' 'ժ'], .lit [' '], .cls false [.rng 'Ա' 'Ա', .rng 'ա' 'ա'], .cls false [.rng 'Ռ' 'Ռ', .rng 'ռ' 'ռ'], .cls false [.rng 'Ա' 'Ա', .rng 'ա' 'ա'], .cls false [.rng 'Ջ' 'Ջ', .rng 'ջ' 'ջ']], [.ref 1, .lit [' ', 'h', 'o', 'u', 'r', ' ', 'a', 'g', 'o']]),
    (.seqs [.grp 1 (.number), .lit [' '], .cls false [.rng 'Շ' 'Շ', .rng 'շ' 'շ'], .cls false [.rng 'Ա' 'Ա', .rng 'ա' 'ա'], .cls false [.rng 'Բ' 'Բ', .rng 'բ' 'բ'], .lit ['-'], .cls false [.rng 'Ի' 'Ի', .rng 'ի' 'ի'], .cls false [.rng 'Ց' 'Ց', .rng 'ց' 'ց']], [.lit ['i', 'n', ' '], .ref 1, .lit [' ', 'w', 'e', 'e', 'k']]),
    (.seqs [.grp 1 (.number), .lit [' '], .cls false [.rng 'Վ' 'Վ', .rng 'վ' 'վ'], .lit [' '], .cls false [.rng 'Ա' 'Ա', .rng 'ա' 'ա'], .cls false [.rng 'Ռ' 'Ռ', .rng 'ռ' 'ռ'], .cls false [.rng 'Ա' 'Ա', .rng 'ա' 'ա'], .cls false [.rng 'Ջ' 'Ջ', .rng 'ջ' 'ջ']], [.ref 1, .lit [' ', 's', 'e', 'c', 'o', 'n', 'd', ' ', 'a', 'g', 'o']]),
    (.seqs [.grp 1 (.number), .lit [' '], .cls false [.rng 'Վ' 'Վ', .rng 'վ' 'վ'], .cls false [.rng 'Ր' 'Ր', .rng 'ր' 'ր'], .cls false [.rng 'Կ' 'Կ', .rng 'կ' 'կ'], .lit ['-'], .cls false [.rng 'Ի' 'Ի', .rng 'ի' 'ի'], .cls false [.rng 'Ց' 'Ց', .rng 'ց' 'ց']], [.lit ['i', 'n', ' '], .ref 1, .lit [' ', 's', 'e', 'c', 'o', 'n', 'd']]),
    (.seqs [.grp 1 (.number), .lit [' '], .cls false [.rng 'Տ' 'Տ', .rng 'տ' 'տ'], .lit [' '], .cls false [.rng 'Ա' 'Ա', .rng 'ա' 'ա'], .cls false [.rng 'Ռ' 'Ռ', .rng 'ռ' 'ռ'], .cls false [.rng 'Ա' 'Ա', .rng 'ա' 'ա'], .cls false [.rng 'Ջ' 'Ջ', .rng 'ջ' 'ջ']], [.ref 1, .lit [' ', 'y', 'e', 'a', 'r', ' ', 'a', 'g', 'o']]),
    (.seqs [.grp 1 (.number), .lit [' '], .cls false [.rng 'Տ' 'Տ', .rng 'տ' 'տ'], .cls false [.rng 'Ա' 'Ա', .rng 'ա' 'ա'], .cls false [.rng 'Ր' 'Ր', .rng 'ր' 'ր'], .cls false [.rng 'Ո' 'Ո', .rng 'ո' 'ո'], .cls false [.rng 'Ւ' 'Ւ', .rng 'ւ' 'ւ'], .cls false [.rng 'Ց' 'Ց', .rng 'ց' 'ց']], [.lit ['i', 'n', ' '], .ref 1, .lit [' ', 'y', 'e', 'a', 'r']]),
    (.seqs [.grp 1 (.number), .lit [' '], .cls false [.rng 'Ր' 'Ր', .rng 'ր' 'ր'], .lit [' '], .cls false [.rng 'Ա' 'Ա', .rng 'ա' 'ա'], .cls false [.rng 'Ռ' 'Ռ', .rng 'ռ' 'ռ'], .cls false [.rng 'Ա' 'Ա', .rng 'ա' 'ա'], .cls false [.rng 'Ջ' 'Ջ', .rng 'ջ' 'ջ']], [.ref 1, .lit [' ', 'm', 'i', 'n', 'u', 't', 'e', ' ', 'a', 'g', 'o']]),
    (.seqs [.grp 1 (.number), .lit [' '], .cls false [.rng 'Ր' 'Ր', .rng 'ր' 'ր'], .cls false [.rng 'Ո' 'Ո', .rng 'ո' 'ո'], .cls false [.rng 'Պ' 'Պ', .rng 'պ' 'պ'], .cls false [.rng 'Ե' 'Ե', .rng 'ե' 'ե'], .cls false [.rng 'Ի' 'Ի', .rng 'ի' 'ի'], .cls false [.rng 'Ց' 'Ց', .rng 'ց' 'ց']], [.lit ['i', 'n', ' '], .ref 1, .lit [' ', 'm', 'i', 'n', 'u', 't', 'e']]),
    (.seqs [.grp 1 (.number), .lit [' '], .cls false [.rng 'Ա' 'Ա', .rng 'ա' 'ա'], .cls false [.rng 'Մ' 'Մ', .rng 'մ' 'մ'], .cls false [.rng 'Ս' 'Ս', .rng 'ս' 'ս'], .cls false [.rng 'Ի' 'Ի', .rng 'ի' 'ի'], .cls false [.rng 'Ց' 'Ց', .rng 'ց' 'ց']], [.lit ['i', 'n', ' '], .ref 1, .lit [' ', 'm', 'o', 'n', 't', 'h']]),
    (.seqs [.grp 1 (.number), .lit [' '], .cls false [.rng 'Ժ' 'Ժ', .rng 'ժ' 'ժ'], .cls false [.rng 'Ա' 'Ա', .rng 'ա' 'ա'], .cls false [.rng 'Մ' 'Մ', .rng 'մ' 'մ'], .cls false [.rng 'Ի' 'Ի', .rng 'ի' 'ի'], .cls false [.rng 'Ց' 'Ց', .rng 'ց' 'ց']], [.lit ['i', 'n', ' '], .ref 1, .lit [' ', 'h', 'o', 'u', 'r']]),
    (.seqs [.grp 1 (.number), .lit [' '], .cls false [.rng 'Ժ' 'Ժ', .rng 'ժ' 'ժ'], .lit ['-'], .cls false [.rng 'Ի' 'Ի', .rng 'ի' 'ի'], .cls false [.rng 'Ց' 'Ց', .rng 'ց' 'ց']], [.lit ['i', 'n', ' '], .ref 1, .lit [' ', 'h', 'o', 'u', 'r']]),
    (.seqs [.grp 1 (.number), .lit [' '], .cls false [.rng 'Վ' 'Վ', .rng 'վ' 'վ'], .lit ['-'], .cls false [.rng 'Ի' 'Ի', .rng 'ի' 'ի'], .cls false [.rng 'Ց' 'Ց', .rng 'ց' 'ց']], [.lit ['i', 'n', ' '], .ref 1, .lit [' ', 's', 'e', 'c', 'o', 'n', 'd']]),
    (.seqs [.grp 1 (.number), .lit [' '], .cls false [.rng 'Ր' 'Ր', .rng 'ր' 'ր'], .lit ['-'], .cls false [.rng 'Ի' 'Ի', .rng 'ի' 'ի'], .cls false [.rng 'Ց' 'Ց', .rng 'ց' 'ց']], [.lit ['i', 'n', ' '], .ref 1, .lit [' ', 'm', 'i', 'n', 'u', 't', 'e']]),
    (.seqs [.grp 1 (.number), .lit [' '], .cls false [.rng 'Օ' 'Օ', .rng 'օ' 'օ'], .cls false [.rng 'Ր' 'Ր', .rng 'ր' 'ր'], .cls false [.rng 'Ի' 'Ի', .rng 'ի' 'ի'], .cls false [.rng 'Ց' 'Ց', .rng 'ց' 'ց']], [.lit ['i', 'n', ' '], .ref 1, .lit [' ', 'd', 'a', 'y']])],
  rxCombined := some (.seqs [.grp 1 (.alts [.bos, .cls true [.letter, .mark, .digit], .lit ['_']]), .grp 2 (.alts [.seqs [.number, .lit [' '], .cls false [.rng 'Վ' 'Վ', .rng 'վ' 'վ'], .cls false [.rng 'Ա' 'Ա', .rng 'ա' 'ա'], .cls false [.rng 'Յ' 'Յ', .rng 'յ' 'յ'], .cls false [.rng 'Ր' 'Ր', .rng 'ր' 'ր'], .cls false [.rng 'Կ' 'Կ', .rng 'կ' 'կ'], .cls false [.rng 'Յ' 'Յ', .rng 'յ' 'յ'], .cls false [.rng 'Ա' 'Ա', .rng 'ա' 'ա'], .cls false [.rng 'Ն' 'Ն', .rng 'ն' 'ն'], .lit [' '], .cls false [.rng 'Ա' 'Ա', .rng 'ա' 'ա'], .cls false [.rng 'Ռ' 'Ռ', .rng 'ռ' 'ռ'], .cls false [.rng 'Ա' 'Ա', .rng 'ա' 'ա'], .cls false [.rng 'Ջ' 'Ջ', .rng 'ջ' 'ջ']], .seqs [.number, .lit [' '], .cls false [.rng 'Շ' 'Շ', .rng 'շ' 'շ'], .cls false [.rng 'Ա' 'Ա', .rng 'ա' 'ա'], .cls false [.rng 'Բ' 'Բ', .rng 'բ' 'բ'], .cls false [.rng 'Ա' 'Ա', .rng 'ա' 'ա'], .cls false [.rng 'Թ' 'Թ', .rng 'թ' 'թ'], .lit [' '], .cls false [.rng 'Ա' 'Ա', .rng 'ա' 'ա'], .cls false [.rng 'Ռ' 'Ռ', .rng 'ռ' 'ռ'], .cls false [.rng 'Ա' 'Ա', .rng 'ա' 'ա'], .cls false [.rng 'Ջ' 'Ջ', .rng 'ջ' 'ջ']], .seqs [.number, .lit [' '], .cls false [.rng 'Վ' 'Վ', .rng 'վ' 'վ'], .cls false [.rng 'Ա' 'Ա', .rng 'ա' 'ա'], .cls false [.rng 'Յ' 'Յ', .rng 'յ' 'յ'], .cls false [.rng 'Ր' 'Ր', .rng 'ր' 'ր'], .cls false [.rng 'Կ' 'Կ', .rng 'կ' 'կ'], .cls false [.rng 'Յ' 'Յ', .rng 'յ' 'յ'], .cls false [.rng 'Ա' 'Ա', .rng 'ա' 'ա'], .cls false [.rng 'Ն' 'Ն', .rng 'ն' 'ն'], .cls false [.rng 'Ի' 'Ի', .rng 'ի' 'ի'], .cls false [.rng 'Ց' 'Ց', .rng 'ց' 'ց']], .seqs [.number, .lit [' '], .cls false [.rng 'Ա' 'Ա', .rng 'ա' 'ա'], .cls false [.rng 'Մ' 'Մ', .rng 'մ' 'մ'], .cls false [.rng 'Ի' 'Ի', .rng 'ի' 'ի'], .cls false [.rng 'Ս' 'Ս', .rng 'ս' 'ս'], .lit [' '], .cls false [.rng 'Ա' 'Ա', .rng 'ա' 'ա'], .cls false [.rng 'Ռ' 'Ռ', .rng 'ռ' 'ռ'], .cls false [.rng 'Ա' 'Ա', .rng 'ա' 'ա'], .cls false [.rng 'Ջ' 'Ջ', .rng 'ջ' 'ջ']], .seqs [.number, .lit [' '], .cls false [.rng 'Տ' 'Տ', .rng 'տ' 'տ'], .cls false [.rng 'Ա' 'Ա', .rng 'ա' 'ա'], .cls false [.rng 'Ր' 'Ր', .rng 'ր' 'ր'], .cls false [.rng 'Ի' 'Ի', .rng 'ի' 'ի'], .lit [' '], .cls false [.rng 'Ա' 'Ա', .rng 'ա' 'ա'], .cls false [.rng 'Ռ' 'Ռ', .rng 'ռ' 'ռ'], .cls false [.rng 'Ա' 'Ա', .rng 'ա' 'ա'], .cls false [.rng 'Ջ' 'Ջ', .rng 'ջ' 'ջ']], .seqs [.number, .lit [' '], .cls false [.rng 'Ր' 'Ր', .rng 'ր' 'ր'], .cls false [.rng 'Ո' 'Ո', .rng 'ո' 'ո'], .cls false [.rng 'Պ' 'Պ', .rng 'պ' 'պ'], .cls false [.rng 'Ե' 'Ե', .rng 'ե' 'ե'], .lit [' '], .cls false [.rng 'Ա' 'Ա', .rng 'ա' 'ա'], .cls false [.rng 'Ռ' 'Ռ', .rng 'ռ' 'ռ'], .cls false [.rng 'Ա' 'Ա', .rng 'ա' 'ա'], .cls false [.rng 'Ջ' 'Ջ', .rng 'ջ' 'ջ']], .seqs [.number, .lit [' '], .cls false [.rng 'Ժ' 'Ժ', .rng 'ժ' 'ժ'], .cls false [.rng 'Ա' 'Ա', .rng 'ա' 'ա'], .cls false [.rng 'Մ' 'Մ', .rng 'մ' 'մ'], .lit [' '], .cls false [.rng 'Ա' 'Ա', .rng 'ա' 'ա'], .cls false [.rng 'Ռ' 'Ռ', .rng 'ռ' 'ռ'], .cls false [.rng 'Ա' 'Ա', .rng 'ա' 'ա'], .cls false [.rng 'Ջ' 'Ջ', .rng 'ջ' 'ջ']], .seqs [.number, .lit [' '], .cls false [.rng 'Շ' 'Շ', .rng 'շ' 'շ'], .cls false [.rng 'Ա' 'Ա', .rng 'ա' 'ա'], .cls false [.rng 'Բ' 'Բ', .rng 'բ' 'բ'], .lit [' '], .cls false [.rng 'Ա' 'Ա', .rng 'ա' 'ա'], .cls false [.rng 'Ռ' 'Ռ', .rng 'ռ' 'ռ'], .cls false [.rng 'Ա' 'Ա', .rng 'ա' 'ա'], .cls false [.rng 'Ջ' 'Ջ', .rng 'ջ' 'ջ']], .seqs [.number, .lit [' '], .cls false [.rng 'Վ' 'Վ', .rng 'վ' 'վ'], .cls false [.rng 'Ր' 'Ր', .rng 'ր' 'ր'], .cls false [.rng 'Կ' 'Կ', .rng 'կ' 'կ'], .lit [' '], .cls false [.rng 'Ա' 'Ա', .rng 'ա' 'ա'], .cls false [.rng 'Ռ' 'Ռ', .rng 'ռ' 'ռ'], .cls false [.rng 'Ա' 'Ա', .rng 'ա' 'ա'], .cls false [.rng 'Ջ' 'Ջ', .rng 'ջ' 'ջ']], .seqs [.number, .lit [' '], .cls false [.rng 'Շ' 'Շ', .rng 'շ' 'շ'], .cls false [.rng 'Ա' 'Ա', .rng 'ա' 'ա'], .cls false [.rng 'Բ' 'Բ', .rng 'բ' 'բ'], .lit [' '], .cls false [.rng 'Ա' 'Ա', .rng 'ա' 'ա'], .cls false [.rng 'Ն' 'Ն', .rng 'ն' 'ն'], .cls false [.rng 'Ց' 'Ց', .rng 'ց' 'ց']], .seqs [.number, .lit [' '], .cls false [.rng 'Շ' 'Շ', .rng 'շ' 'շ'], .cls false [.rng 'Ա' 'Ա', .rng 'ա' 'ա'], .cls false [.rng 'Բ' 'Բ', .rng 'բ' 'բ'], .cls false [.rng 'Ա' 'Ա', .rng 'ա' 'ա'], .cls false [.rng 'Թ' 'Թ', .rng 'թ' 'թ'], .cls false [.rng 'Ի' 'Ի', .rng 'ի' 'ի'], .cls false [.rng 'Ց' 'Ց', .rng 'ց' 'ց']], .seqs [.number, .lit [' '], .cls false [.rng 'Օ' 'Օ', .rng 'օ' 'օ'], .cls false [.rng 'Ր' 'Ր', .rng 'ր' 'ր'], .lit [' '], .cls false [.rng 'Ա' 'Ա', .rng 'ա' 'ա'], .cls false [.rng 'Ռ' 'Ռ', .rng 'ռ' 'ռ'], .cls false [.rng 'Ա' 'Ա', .rng 'ա' 'ա'], .cls false [.rng 'Ջ' 'Ջ', .rng 'ջ' 'ջ']], .seqs [.number, .lit [' '], .cls false [.rng 'Ժ' 'Ժ', .rng 'ժ' 'ժ'], .lit [' '], .cls false [.rng 'Ա' 'Ա', .rng 'ա' 'ա'], .cls false [.rng 'Ռ' 'Ռ', .rng 'ռ' 'ռ'], .cls false [.rng 'Ա' 'Ա', .rng 'ա' 'ա'], .cls false [.rng 'Ջ' 'Ջ', .rng 'ջ' 'ջ']], .seqs [.number, .lit [' '], .cls false [.rng 'Շ' 'Շ', .rng 'շ' 'շ'], .cls false [.rng 'Ա' 'Ա', .rng 'ա' 'ա'], .cls false [.rng 'Բ' 'Բ', .rng 'բ' 'բ'], .lit ['-'], .cls false [.rng 'Ի' 'Ի', .rng 'ի' 'ի'], .cls false [.rng 'Ց' 'Ց', .rng 'ց' 'ց']], .seqs [.number, .lit [' '], .cls false [.rng 'Վ' 'Վ', .rng 'վ' 'վ'], .lit [' '], .cls false [.rng 'Ա' 'Ա', .rng 'ա' 'ա'], .cls false [.rng 'Ռ' 'Ռ', .rng 'ռ' 'ռ'], .cls false [.rng 'Ա' 'Ա', .rng 'ա' 'ա'], .cls false [.rng 'Ջ' 'Ջ', .rng 'ջ' 'ջ']], .seqs [.number, .lit [' '], .cls false [.rng 'Վ' 'Վ', .rng 'վ' 'վ'], .cls false [.rng 'Ր' 'Ր', .rng 'ր' 'ր'], .cls false [.rng 'Կ' 'Կ', .rng 'կ' 'կ'], .lit ['-'], .cls false [.rng 'Ի' 'Ի', .rng 'ի' 'ի'], .cls false [.rng 'Ց' 'Ց', .rng 'ց' 'ց']], .seqs [.number, .lit [' '], .cls false [.rng 'Տ' 'Տ', .rng 'տ' 'տ'], .lit [' '], .cls false [.rng 'Ա' 'Ա', .rng 'ա' 'ա'], .cls false [.rng 'Ռ' 'Ռ', .rng 'ռ' 'ռ'], .cls false [.rng 'Ա' 'Ա', .rng 'ա' 'ա'], .cls false [.rng 'Ջ' 'Ջ', .rng 'ջ' 'ջ']], .seqs [.number, .lit [' '], .cls false [.rng 'Տ' 'Տ', .rng 'տ' 'տ'], .cls false [.rng 'Ա' 'Ա', .rng 'ա' 'ա'], .cls false [.rng 'Ր' 'Ր', .rng 'ր' 'ր'], .cls false [.rng 'Ո' 'Ո', .rng 'ո' 'ո'], .cls false [.rng 'Ւ' 'Ւ', .rng 'ւ' 'ւ'], .cls false [.rng 'Ց' 'Ց', .rng 'ց' 'ց']], .seqs [.number, .lit [' '], .cls false [.rng 'Ր' 'Ր', .rng 'ր' 'ր'], .lit [' '], .cls false [.rng 'Ա' 'Ա', .rng 'ա' 'ա'], .cls false [.rng 'Ռ' 'Ռ', .rng 'ռ' 'ռ'], .cls false [.rng 'Ա' 'Ա', .rng 'ա' 'ա'], .cls false [.rng 'Ջ' 'Ջ', .rng 'ջ' 'ջ']], .seqs [.number, .lit [' '], .cls false [.rng 'Ր' 'Ր', .rng 'ր' 'ր'], .cls false [.rng 'Ո' 'Ո', .rng 'ո' 'ո'], .cls false [.rng 'Պ' 'Պ', .rng 'պ' 'պ'], .cls false [.rng 'Ե' 'Ե', .rng 'ե' 'ե'], .cls false [.rng 'Ի' 'Ի', .rng 'ի' 'ի'], .cls false [.rng 'Ց' 'Ց', .rng 'ց' 'ց']], .seqs [.number, .lit [' '], .cls false [.rng 'Ա' 'Ա', .rng 'ա' 'ա'], .cls false [.rng 'Մ' 'Մ', .rng 'մ' 'մ'], .cls false [.rng 'Ս' 'Ս', .rng 'ս' 'ս'], .cls false [.rng 'Ի' 'Ի', .rng 'ի' 'ի'], .cls false [.rng 'Ց' 'Ց', .rng 'ց' 'ց']], .seqs [.number, .lit [' '], .cls false [.rng 'Ժ' 'Ժ', .rng 'ժ' 'ժ'], .cls false [.rng 'Ա' 'Ա', .rng 'ա' 'ա'], .cls false [.rng 'Մ' 'Մ', .rng 'մ' 'մ'], .cls false [.rng 'Ի' 'Ի', .rng 'ի' 'ի'], .cls false [.rng 'Ց' 'Ց', .rng 'ց' 'ց']], .seqs [.number, .lit [' '], .cls false [.rng 'Ժ' 'Ժ', .rng 'ժ' 'ժ'], .lit ['-'], .cls false [.rng 'Ի' 'Ի', .rng 'ի' 'ի'], .cls false [.rng 'Ց' 'Ց', .rng 'ց' 'ց']], .seqs [.number, .lit [' '], .cls false [.rng 'Վ' 'Վ', .rng 'վ' 'վ'], .lit ['-'], .cls false [.rng 'Ի' 'Ի', .rng 'ի' 'ի'], .cls false [.rng 'Ց' 'Ց', .rng 'ց' 'ց']], .seqs [.number, .lit [' '], .cls false [.rng 'Ր' 'Ր', .rng 'ր' 'ր'], .lit ['-'], .cls false [.rng 'Ի' 'Ի', .rng 'ի' 'ի'], .cls false [.rng 'Ց' 'Ց', .rng 'ց' 'ց']], .seqs [.number, .lit [' '], .cls false [.rng 'Օ' 'Օ', .rng 'օ' 'օ'], .cls false [.rng 'Ր' 'Ր', .rng 'ր' 'ր'], .cls false [.rng 'Ի' 'Ի', .rng 'ի' 'ի'], .cls false [.rng 'Ց' 'Ց', .rng 'ց' 'ց']]]), .grp 3 (.alts [.eos, .cls true [.letter, .mark, .digit], .lit ['_']])], 3),
  rxExact := some (.seqs [.bos, .grp 1 (.alts [.seqs [.number, .lit [' '], .cls false [.rng 'Վ' 'Վ', .rng 'վ' 'վ'], .cls false [.rng 'Ա' 'Ա', .rng 'ա' 'ա'], .cls false [.rng 'Յ' 'Յ', .rng 'յ' 'յ'], .cls false [.rng 'Ր' 'Ր', .rng 'ր' 'ր'], .cls false [.rng 'Կ' 'Կ', .rng 'կ' 'կ'], .cls false [.rng 'Յ' 'Յ', .rng 'յ' 'յ'], .cls false [.rng 'Ա' 'Ա', .rng 'ա' 'ա'], .cls false [.rng 'Ն' 'Ն', .rng 'ն' 'ն'], .lit [' '], .cls false [.rng 'Ա' 'Ա', .rng 'ա' 'ա'], .cls false [.rng 'Ռ' 'Ռ', .rng 'ռ' 'ռ'], .cls false [.rng 'Ա' 'Ա', .rng 'ա' 'ա'], .cls false [.rng 'Ջ' 'Ջ', .rng 'ջ' 'ջ']], .seqs [.number, .lit [' '], .cls false [.rng 'Շ' 'Շ', .rng 'շ' 'շ'], .cls false [.rng 'Ա' 'Ա', .rng 'ա' 'ա'], .cls false [.rng 'Բ' 'Բ', .rng 'բ' 'բ'], .cls false [.rng 'Ա' 'Ա', .rng 'ա' 'ա'], .cls false [.rng 'Թ' 'Թ', .rng 'թ' 'թ'], .lit [' '], .cls false [.rng 'Ա' 'Ա', .rng 'ա' 'ա'], .cls false [.rng 'Ռ' 'Ռ', .rng 'ռ' 'ռ'], .cls false [.rng 'Ա' 'Ա', .rng 'ա' 'ա'], .cls false [.rng 'Ջ' 'Ջ', .rng 'ջ' 'ջ']], .seqs [.number, .lit [' '], .cls false [.rng 'Վ' 'Վ', .rng 'վ' 'վ'], .cls false [.rng 'Ա' 'Ա', .rng 'ա' 'ա'], .cls false [.rng 'Յ' 'Յ', .rng 'յ' 'յ'], .cls false [.rng 'Ր' 'Ր', .rng 'ր' 'ր'], .cls false [.rng 'Կ' 'Կ', .rng 'կ' 'կ'], .cls false [.rng 'Յ' 'Յ', .rng 'յ' 'յ'], .cls false [.rng 'Ա' 'Ա', .rng 'ա' 'ա'], .cls false [.rng 'Ն' 'Ն', .rng 'ն' 'ն'], .cls false [.rng 'Ի' 'Ի', .rng 'ի' 'ի'], .cls false [.rng 'Ց' 'Ց', .rng 'ց' 'ց']], .seqs [.number, .lit [' '], .cls false [.rng 'Ա' 'Ա', .rng 'ա' 'ա'], .cls false [.rng 'Մ' 'Մ', .rng 'մ' 'մ'], .cls false [.rng 'Ի' 'Ի', .rng 'ի' 'ի'], .cls false [.rng 'Ս' 'Ս', .rng 'ս' 'ս'], .lit [' '], .cls false [.rng 'Ա' 'Ա', .rng 'ա' 'ա'], .cls false [.rng 'Ռ' 'Ռ', .rng 'ռ' 'ռ'], .cls false [.rng 'Ա' 'Ա', .rng 'ա' 'ա'], .cls false [.rng 'Ջ' 'Ջ', .rng 'ջ' 'ջ']], .seqs [.number, .lit [' '], .cls false [.rng 'Տ' 'Տ', .rng 'տ' 'տ'], .cls false [.rng 'Ա' 'Ա', .rng 'ա' 'ա'], .cls false [.rng 'Ր' 'Ր', .rng 'ր' 'ր'], .cls false [.rng 'Ի' 'Ի', .rng 'ի' 'ի'], .lit [' '], .cls false [.rng 'Ա' 'Ա', .rng 'ա' 'ա'], .cls false [.rng 'Ռ' 'Ռ', .rng 'ռ' 'ռ'], .cls false [.rng 'Ա' 'Ա', .rng 'ա' 'ա'], .cls false [.rng 'Ջ' 'Ջ', .rng 'ջ' 'ջ']], .seqs [.number, .lit [' '], .cls false [.rng 'Ր' 'Ր', .rng 'ր' 'ր'], .cls false [.rng 'Ո' 'Ո', .rng 'ո' 'ո'], .cls false [.rng 'Պ' 'Պ', .rng 'պ' 'պ'], .cls false [.rng 'Ե' 'Ե', .rng 'ե' 'ե'], .lit [' '], .cls false [.rng 'Ա' 'Ա', .rng 'ա' 'ա'], .cls false [.rng 'Ռ' 'Ռ', .rng 'ռ' 'ռ'], .cls false [.rng 'Ա' 'Ա', .rng 'ա' 'ա'], .cls false [.rng 'Ջ' 'Ջ', .rng 'ջ' 'ջ']], .seqs [.number, .lit [' '], .cls false [.rng 'Ժ' 'Ժ', .rng 'ժ' 'ժ'], .cls false [.rng 'Ա' 'Ա', .rng 'ա' 'ա'], .cls false [.rng 'Մ' 'Մ', .rng 'մ' 'մ'], .lit [' '], .cls false [.rng 'Ա' 'Ա', .rng 'ա' 'ա'], .cls false [.rng 'Ռ' 'Ռ', .rng 'ռ' 'ռ'], .cls false [.rng 'Ա' 'Ա', .rng 'ա' 'ա'], .cls false [.rng 'Ջ' 'Ջ', .rng 'ջ' 'ջ']], .seqs [.number, .lit [' '], .cls false [.rng 'Շ' 'Շ', .rng 'շ' 'շ'], .cls false [.rng 'Ա' 'Ա', .rng 'ա' 'ա'], .cls false [.rng 'Բ' 'Բ', .rng 'բ' 'բ'], .lit [' '], .cls false [.rng 'Ա' 'Ա', .rng 'ա' 'ա'], .cls false [.rng 'Ռ' 'Ռ', .rng 'ռ' 'ռ'], .cls false [.rng 'Ա' 'Ա', .rng 'ա' 'ա'], .cls false [.rng 'Ջ' 'Ջ', .rng 'ջ' 'ջ']], .seqs [.number, .lit [' '], .cls false [.rng 'Վ' 'Վ', .rng 'վ' 'վ'], .cls false [.rng 'Ր' 'Ր', .rng 'ր' 'ր'], .cls false [.rng 'Կ' 'Կ', .rng 'կ' 'կ'], .lit [' '], .cls false [.rng 'Ա' 'Ա', .rng 'ա' 'ա'], .cls false [.rng 'Ռ' 'Ռ', .rng 'ռ' 'ռ'], .cls false [.rng 'Ա' 'Ա', .rng 'ա' 'ա'], .cls false [.rng 'Ջ' 'Ջ', .rng 'ջ' 'ջ']], .seqs [.number, .lit [' '], .cls false [.rng 'Շ' 'Շ', .rng 'շ' 'շ'], .cls false [.rng 'Ա' 'Ա', .rng 'ա' 'ա'], .cls false [.rng 'Բ' 'Բ', .rng 'բ' 'բ'], .lit [' '], .cls false [.rng 'Ա' 'Ա', .rng 'ա' 'ա'], .cls false [.rng 'Ն' 'Ն', .rng 'ն' 'ն'], .cls false [.rng 'Ց' 'Ց', .rng 'ց' 'ց']], .seqs [.number, .lit [' '], .cls false [.rng 'Շ' 'Շ', .rng 'շ' 'շ'], .cls false [.rng 'Ա' 'Ա', .rng 'ա' 'ա'], .cls false [.rng 'Բ' 'Բ', .rng 'բ' 'բ'], .cls false [.rng 'Ա' 'Ա', .rng 'ա' 'ա'], .cls false [.rng 'Թ' 'Թ', .rng 'թ' 'թ'], .cls false [.rng 'Ի' 'Ի', .rng 'ի' 'ի'], .cls false [.rng 'Ց' 'Ց', .rng 'ց' 'ց']], .seqs [.number, .lit [' '], .cls false [.rng 'Օ' 'Օ', .rng 'օ' 'օ'], .cls false [.rng 'Ր' 'Ր', .rng 'ր' 'ր'], .lit [' '], .cls false [.rng 'Ա' 'Ա', .rng 'ա' 'ա'], .cls false [.rng 'Ռ' 'Ռ', .rng 'ռ' 'ռ'], .cls false [.rng 'Ա' 'Ա', .rng 'ա' 'ա'], .cls false [.rng 'Ջ' 'Ջ', .rng 'ջ' 'ջ']], .seqs [.number, .lit [' '], .cls false [.rng 'Ժ' 'Ժ', .rng 'ժ' 'ժ'], .lit [' '], .cls false [.rng 'Ա' 'Ա', .rng 'ա' 'ա'], .cls false [.rng 'Ռ' 'Ռ', .rng 'ռ' 'ռ'], .cls false [.rng 'Ա' 'Ա', .rng 'ա' 'ա'], .cls false [.rng 'Ջ' 'Ջ', .rng 'ջ' 'ջ']], .seqs [.number, .lit [' '], .cls false [.rng 'Շ' 'Շ', .rng 'շ' 'շ'], .cls false [.rng 'Ա' 'Ա', .rng 'ա' 'ա'], .cls false [.rng 'Բ' 'Բ', .rng 'բ' 'բ'], .lit ['-'], .cls false [.rng 'Ի' 'Ի', .rng 'ի' 'ի'], .cls false [.rng 'Ց' 'Ց', .rng 'ց' 'ց']], .seqs [.number, .lit [' '], .cls false [.rng 'Վ' 'Վ', .rng 'վ' 'վ'], .lit [' '], .cls false [.rng 'Ա' 'Ա', .rng 'ա' 'ա'], .cls false [.rng 'Ռ' 'Ռ', .rng 'ռ' 'ռ'], .cls false [.rng 'Ա' 'Ա', .rng 'ա' 'ա'], .cls false [.rng 'Ջ' 'Ջ', .rng 'ջ' 'ջ']], .seqs [.number, .lit [' '], .cls false [.rng 'Վ' 'Վ', .rng 'վ' 'վ'], .cls false [.rng 'Ր' 'Ր', .rng 'ր' 'ր'], .cls false [.rng 'Կ' 'Կ', .rng 'կ' 'կ'], .lit ['-'], .cls false [.rng 'Ի' 'Ի', .rng 'ի' 'ի'], .cls false [.rng 'Ց' 'Ց', .rng 'ց' 'ց']], .seqs [.number, .lit [' '], .cls false [.rng 'Տ' 'Տ', .rng 'տ' 'տ'], .lit [' '], .cls false [.rng 'Ա' 'Ա', .rng 'ա' 'ա'], .cls false [.rng 'Ռ' 'Ռ', .rng 'ռ' 'ռ'], .cls false [.rng 'Ա' 'Ա', .rng 'ա' 'ա'], .cls false [.rng 'Ջ' 'Ջ', .rng 'ջ' 'ջ']], .seqs [.number, .lit [' '], .cls false [.rng 'Տ' 'Տ', .rng 'տ' 'տ'], .cls false [.rng 'Ա' 'Ա', .rng 'ա' 'ա'], .cls false [.rng 'Ր' 'Ր', .rng 'ր' 'ր'], .cls false [.rng 'Ո' 'Ո', .rng 'ո' 'ո'], .cls false [.rng 'Ւ' 'Ւ', .rng 'ւ' 'ւ'], .cls false [.rng 'Ց' 'Ց', .rng 'ց' 'ց']], .seqs [.number, .lit [' '], .cls false [.rng 'Ր' 'Ր', .rng 'ր' 'ր'], .lit [' '], .cls false [.rng 'Ա' 'Ա', .rng 'ա' 'ա'], .cls false [.rng 'Ռ' 'Ռ', .rng 'ռ' 'ռ'], .cls false [.rng 'Ա' 'Ա', .rng 'ա' 'ա'], .cls false [.rng 'Ջ' 'Ջ', .rng 'ջ' 'ջ']], .seqs [.number, .lit [' '], .cls false [.rng 'Ր' 'Ր', .rng 'ր' 'ր'], .cls false [.rng 'Ո' 'Ո', .rng 'ո' 'ո'], .cls false [.rng 'Պ' 'Պ', .rng 'պ' 'պ'], .cls false [.rng 'Ե' 'Ե', .rng 'ե' 'ե'], .cls false [.rng 'Ի' 'Ի', .rng 'ի' 'ի'], .cls false [.rng 'Ց' 'Ց', .rng 'ց' 'ց']], .seqs [.number, .lit [' '], .cls false [.rng 'Ա' 'Ա', .rng 'ա' 'ա'], .cls false [.rng 'Մ' 'Մ', .rng 'մ' 'մ'], .cls false [.rng 'Ս' 'Ս', .rng 'ս' 'ս'], .cls false [.rng 'Ի' 'Ի', .rng 'ի' 'ի'], .cls false [.rng 'Ց' 'Ց', .rng 'ց' 'ց']], .seqs [.number, .lit [' '], .cls false [.rng 'Ժ' 'Ժ', .rng 'ժ' 'ժ'], .cls false [.rng 'Ա' 'Ա', .rng 'ա' 'ա'], .cls false [.rng 'Մ' 'Մ', .rng 'մ' 'մ'], .cls false [.rng 'Ի' 'Ի', .rng 'ի' 'ի'], .cls false [.rng 'Ց' 'Ց', .rng 'ց' 'ց']], .seqs [.number, .lit [' '], .cls false [.rng 'Ժ' 'Ժ', .rng 'ժ' 'ժ'], .lit ['-'], .cls false [.rng 'Ի' 'Ի', .rng 'ի' 'ի'], .cls false [.rng 'Ց' 'Ց', .rng 'ց' 'ց']], .seqs [.number, .lit [' '], .cls false [.rng 'Վ' 'Վ', .rng 'վ' 'վ'], .lit ['-'], .cls false [.rng 'Ի' 'Ի', .rng 'ի' 'ի'], .cls false [.rng 'Ց' 'Ց', .rng 'ց' 'ց']], .seqs [.number, .lit [' '], .cls false [.rng 'Ր' 'Ր', .rng 'ր' 'ր'], .lit ['-'], .cls false [.rng 'Ի' 'Ի', .rng 'ի' 'ի'], .cls false [.rng 'Ց' 'Ց', .rng 'ց' 'ց']], .seqs [.number, .lit [' '], .cls false [.rng 'Օ' 'Օ', .rng 'օ' 'օ'], .cls false [.rng 'Ր' 'Ր', .rng 'ր' 'ր'], .cls false [.rng 'Ի' 'Ի', .rng 'ի' 'ի'], .cls false [.rng 'Ց' 'Ց', .rng 'ց' 'ց']]]), .eos]),
  knownWords :=
   [['հ', 'ա', 'ջ', 'ո', 'ր', 'դ', ' ', 'շ', 'ա', 'բ', 'ա', 'թ'], ['ն', 'ա', 'խ', 'ո', 'ր', 'դ', ' ', 'շ', 'ա', 'բ', 'ա', 'թ'], ['ա', 'ն', 'ց', 'յ', 'ա', 'լ', ' ', 'ա', 'մ', 'ի', 'ս'], ['հ', 'ա', 'ջ', 'ո', 'ր', 'դ', ' ', 'ա', 'մ', 'ի', 'ս'], ['հ', 'ա', 'ջ', 'ո', 'ր', 'դ', ' ', 'տ', 'ա', 'ր', 'ի'], ['ն', 'ա', 'խ', 'ո', 'ր', 'դ', ' ', 'ա', 'մ', 'ի', 'ս'], ['ն', 'ա', 'խ', 'ո', 'ր', 'դ', ' ', 'տ', 'ա', 'ր', 'ի'], ['ա', 'յ', 'ս', ' ', 'ր', 'ո', 'պ', 'ե', 'ի', 'ն'], ['դ', 'ե', 'կ', 'տ', 'ե', 'մ', 'բ', 'ե', 'ր', 'ի'], ['ե', 'ր', 'կ', 'ո', 'ւ', 'շ', 'ա', 'բ', 'թ', 'ի'], ['հ', 'ո', 'կ', 'տ', 'ե', 'մ', 'բ', 'ե', 'ր', 'ի'], ['չ', 'ո', 'ր', 'ե', 'ք', 'շ', 'ա', 'բ', 'թ', 'ի'], ['ս', 'ե', 'պ', 'տ', 'ե', 'մ', 'բ', 'ե', 'ր', 'ի'], ['ա', 'յ', 'ս', ' ', 'ժ', 'ա', 'մ', 'ի', 'ն'], ['ա', 'յ', 'ս', ' ', 'շ', 'ա', 'բ', 'ա', 'թ'], ['դ', 'ե', 'կ', 'տ', 'ե', 'մ', 'բ', 'ե', 'ր'], ['ե', 'ր', 'ե', 'ք', 'շ', 'ա', 'բ', 'թ', 'ի'], ['հ', 'ի', 'ն', 'գ', 'շ', 'ա', 'բ', 'թ', 'ի'], ['հ', 'ո', 'կ', 'տ', 'ե', 'մ', 'բ', 'ե', 'ր'], ['ն', 'ո', 'յ', 'ե', 'մ', 'բ', 'ե', 'ր', 'ի'], ['ս', 'ե', 'պ', 'տ', 'ե', 'մ', 'բ', 'ե', 'ր'], ['ա', 'յ', 'ս', ' ', 'ա', 'մ', 'ի', 'ս'], ['ա', 'յ', 'ս', ' ', 'տ', 'ա', 'ր', 'ի'], ['հ', 'ո', 'ւ', 'ն', 'վ', 'ա', 'ր', 'ի'], ['ն', 'ո', 'յ', 'ե', 'մ', 'բ', 'ե', 'ր'], ['վ', 'ա', 'յ', 'ր', 'կ', 'յ', 'ա', 'ն'], ['փ', 'ե', 'տ', 'ր', 'վ', 'ա', 'ր', 'ի'], ['օ', 'գ', 'ո', 'ս', 'տ', 'ո', 'ս', 'ի'], ['հ', 'ո', 'ւ', 'լ', 'ի', 'ս', 'ի'], ['հ', 'ո', 'ւ', 'ն', 'ի', 'ս', 'ի'], ['հ', 'ո', 'ւ', 'ն', 'վ', 'ա', 'ր'], ['փ', 'ե', 'տ', 'ր', 'վ', 'ա', 'ր'], ['օ', 'գ', 'ո', 'ս', 'տ', 'ո', 'ս'], ['ա', 'պ', 'ր', 'ի', 'լ', 'ի'], ['կ', 'ի', 'ր', 'ա', 'կ', 'ի'], ['հ', 'ո', 'ւ', 'լ', 'ի', 'ս'], ['հ', 'ո', 'ւ', 'ն', 'ի', 'ս'], ['մ', 'ա', 'յ', 'ի', 'ս', 'ի'], ['ո', 'ւ', 'ր', 'բ', 'ա', 'թ'], ['ա', 'յ', 'ս', 'օ', 'ր'], ['ա', 'պ', 'ր', 'ի', 'լ'], ['մ', 'ա', 'յ', 'ի', 'ս'], ['մ', 'ա', 'ր', 'տ', 'ի'], ['շ', 'ա', 'բ', 'ա', 'թ'], ['ա', 'մ', 'ի', 'ս'], ['ա', 'յ', 'ժ', 'մ'], ['ե', 'ր', 'ե', 'կ'], ['մ', 'ա', 'ր', 'տ'], ['վ', 'ա', 'ղ', 'ը'], ['տ', 'ա', 'ր', 'ի'], ['ր', 'ո', 'պ', 'ե'], ['g', 'm', 't'], ['u', 't', 'c'], ['ա', 'մ', 'ս'], ['ա', 'պ', 'ր'], ['դ', 'ե', 'կ'], ['ե', 'ր', 'կ'], ['ե', 'ր', 'ք'], ['ժ', 'ա', 'մ'], ['կ', 'ի', 'ր'], ['հ', 'լ', 'ս'], ['հ', 'ն', 'գ'], ['հ', 'ն', 'ս'], ['հ', 'ն', 'վ'], ['հ', 'ո', 'կ'], ['մ', 'յ', 'ս'], ['մ', 'ր', 'տ'], ['ն', 'ո', 'յ'], ['շ', 'ա', 'բ'], ['շ', 'բ', 'թ'], ['ո', 'ւ', 'ր'], ['չ', 'ր', 'ք'], ['ս', 'ե', 'պ'], ['փ', 'տ', 'վ'], ['օ', 'գ', 'ս'], ['a', 'm'], ['p', 'm'], ['կ', 'ա'], ['կ', 'հ'], ['օ', 'ր'], [' '], ['\''], ['+'], [','], ['-'], ['.'], ['/'], [':'], [';'], ['@'], ['['], [']'], ['z'], ['|'], ['ժ'], ['վ'], ['տ'], ['ր']] }

/-- internal/data/id.go: `id_Locale`. -/
def idLang : LangData := { idDict with
  relativeRegexes :=
   [(.seqs [.grp 1 (.number), .lit [' ', 'm', 'i', 'n', 'g', 'g', 'u', ' ', 'y', 'a', 'n', 'g', ' ', 'l', 'a', 'l', 'u']], [.ref 1, .lit [' ', 'w', 'e', 'e', 'k', ' ', 'a', 'g', 'o']]),
    (.seqs [.grp 1 (.number), .lit [' ', 'b', 'u', 'l', 'a', 'n', ' ', 'y', 'a', 'n', 'g', ' ', 'l', 'a', 'l', 'u']], [.ref 1, .lit [' ', 'm', 'o', 'n', 't', 'h', ' ', 'a', 'g', 'o']]),
    (.seqs [.grp 1 (.number), .lit [' ', 'd', 'e', 't', 'i', 'k', ' ', 'y', 'a', 'n', 'g', ' ', 'l', 'a', 'l', 'u']], [.ref 1, .lit [' ', 's', 'e', 'c', 'o', 'n', 'd', ' ', 'a', 'g', 'o']]),
    (.seqs [.grp 1 (.number), .lit [' ', 'm', 'e', 'n', 'i', 't', ' ', 'y', 'a', 'n', 'g', ' ', 'l', 'a', 'l', 'u']], [.ref 1, .lit [' ', 'm', 'i', 'n', 'u', 't', 'e', ' ', 'a', 'g', 'o']]),
    (.seqs [.grp 1 (.number), .lit [' ', 't', 'a', 'h', 'u', 'n', ' ', 'y', 'a', 'n', 'g', ' ', 'l', 'a', 'l', 'u']], [.ref 1, .lit [' ', 'y', 'e', 'a', 'r', ' ', 'a', 'g', 'o']]),
    (.seqs [.grp 1 (.number), .lit [' ', 'h', 'a', 'r', 'i', ' ', 'y', 'a', 'n', 'g', ' ', 'l', 'a', 'l', 'u']], [.ref 1, .lit [' ', 'd', 'a', 'y', ' ', 'a', 'g', 'o']]),
    (.seqs [.grp 1 (.number), .lit [' ', 'j', 'a', 'm', ' ', 'y', 'a', 'n', 'g', ' ', 'l', 'a', 'l', 'u']], [.ref 1, .lit [' ', 'h', 'o', 'u', 'r', ' ', 'a', 'g', 'o']]),
    (.seqs [.lit ['d', 'a', 'l', 'a', 'm', ' '], .grp 1 (.number), .lit [' ', 'm', 'i', 'n', 'g', 'g', 'u']], [.lit ['i', 'n', ' '], .ref 1, .lit [' ', 'w', 'e', 'e', 'k']]),
    (.seqs [.grp 1 (.number), .lit [' ', 'm', 'i', 'n', 'g', 'g', 'u', ' ', 'l', 'a', 'l', 'u']], [.ref 1, .lit [' ', 'w', 'e', 'e', 'k', ' ', 'a', 'g', 'o']]),
    (.seqs [.lit ['d', 'a', 'l', 'a', 'm', ' '], .grp 1 (.number), .lit [' ', 'b', 'u', 'l', 'a', 'n']], [.lit ['i', 'n', ' '], .ref 1, .lit [' ', 'm', 'o', 'n', 't', 'h']]),
    (.seqs [.lit ['d', 'a', 'l', 'a', 'm', ' '], .grp 1 (.number), .lit [' ', 'd', 'e', 't', 'i', 'k']], [.lit ['i', 'n', ' '], .ref 1, .lit [' ', 's', 'e', 'c', 'o', 'n', 'd']]),
    (.seqs [.lit ['d', 'a', 'l', 'a', 'm', ' '], .grp 1 (.number), .lit [' ', 'm', 'e', 'n', 'i', 't']], [.lit ['i', 'n', ' '], .ref 1, .lit [' ', 'm', 'i', 'n', 'u', 't', 'e']]),
    (.seqs [.lit ['d', 'a', 'l', 'a', 'm', ' '], .grp 1 (.number), .lit [' ', 't', 'a', 'h', 'u', 'n']], [.lit ['i', 'n', ' '], .ref 1, .lit [' ', 'y', 'e', 'a', 'r']]),
    (.seqs [.grp 1 (.number), .lit [' ', 'b', 'u', 'l', 'a', 'n', ' ', 'l', 'a', 'l', 'u']], [.ref 1, .lit [' ', 'm', 'o', 'n', 't', 'h', ' ', 'a', 'g', 'o']]),
    (.seqs [.grp 1 (.number), .lit [' ', 't', 'a', 'h', 'u', 'n', ' ', 'l', 'a', 'l', 'u']], [.ref 1, .lit [' ', 'y', 'e', 'a', 'r', ' ', 'a', 'g', 'o']]),
    (.seqs [.lit ['d', 'a', 'l', 'a', 'm', ' '], .grp 1 (.number), .lit [' ', 'h', 'a', 'r', 'i']], [.lit ['i', 'n', ' '], .ref 1, .lit [' ', 'd', 'a', 'y']]),
    (.seqs [.lit ['d', 'a', 'l', 'a', 'm', ' '], .grp 1 (.number), .lit [' ', 'j', 'a', 'm']], [.lit ['i', 'n', ' '], .ref 1, .lit [' ', 'h', 'o', 'u', 'r']]),
    (.seqs [.grp 1 (.number), .lit [' ', 'b', 'l', 'n', ' ', 'l', 'a', 'l', 'u']], [.ref 1, .lit [' ', 'm', 'o', 'n', 't', 'h', ' ', 'a', 'g', 'o']]),
    (.seqs [.grp 1 (.number), .lit [' ', 'd', 't', 'k', ' ', 'l', 'a', 'l', 'u']], [.ref 1, .lit [' ', 's', 'e', 'c', 'o', 'n', 'd', ' ', 'a', 'g', 'o']]),
    (.seqs [.grp 1 (.number), .lit [' ', 'j', 'a', 'm', ' ', 'l', 'a', 'l', 'u']], [.ref 1, .lit [' ', 'h', 'o', 'u', 'r', ' ', 'a', 'g', 'o']]),
    (.seqs [.grp 1 (.number), .lit [' ', 'm', 'g', 'g', ' ', 'l', 'a', 'l', 'u']], [.ref 1, .lit [' ', 'w', 'e', 'e', 'k', ' ', 'a', 'g', 'o']]),
    (.seqs [.grp 1 (.number), .lit [' ', 'm', 'n', 't', ' ', 'l', 'a', 'l', 'u']], [.ref 1, .lit [' ', 'm', 'i', 'n', 'u', 't', 'e', ' ', 'a', 'g', 'o']]),
    (.seqs [.grp 1 (.number), .lit [' ', 't', 'h', 'n', ' ', 'l', 'a', 'l', 'u']], [.ref 1, .lit [' ', 'y', 'e', 'a', 'r', ' ', 'a', 'g', 'o']]),
    (.seqs [.lit ['d', 'a', 'l', 'a', 'm', ' '], .grp 1 (.number), .lit [' ', 'h']], [.lit ['i', 'n', ' '], .ref 1, .lit [' ', 'd', 'a', 'y']]),
    (.seqs [.lit ['d', 'l', 'm', ' '], .grp 1 (.number), .lit [' ', 'b', 'l', 'n']], [.lit ['i', 'n', ' '], .ref 1, .lit [' ', 'm', 'o', 'n', 't', 'h']]),
    (.seqs [.lit ['d', 'l', 'm', ' '], .grp 1 (.number), .lit [' ', 'd', 't', 'k']], [.lit ['i', 'n', ' '], .ref 1, .lit [' ', 's', 'e', 'c', 'o', 'n', 'd']]),
    (.seqs [.lit ['d', 'l', 'm', ' '], .grp 1 (.number), .lit [' ', 'm', 'g', 'g']], [.lit ['i', 'n', ' '], .ref 1, .lit [' ', 'w', 'e', 'e', 'k']]),
    (.seqs [.lit ['d', 'l', 'm', ' '], .grp 1 (.number), .lit [' ', 'm', 'n', 't']], [.lit ['i', 'n', ' '], .ref 1, .lit [' ', 'm', 'i', 'n', 'u', 't', 'e']]),
    (.seqs [.lit ['d', 'l', 'm', ' '], .grp 1 (.number), .lit [' ', 't', 'h', 'n']], [.lit ['i', 'n', ' '], .ref 1, .lit [' ', 'y', 'e', 'a', 'r']]),
    (.seqs [.grp 1 (.number), .lit [' ', 'h', ' ', 'l', 'a', 'l', 'u']], [.ref 1, .lit [' ', 'd', 'a', 'y', ' ', 'a', 'g', 'o']]),
    (.seqs [.grp 1 (.number), .lit [' ', 'm', 'i', 'n', 'g', 'g', 'u']], [.ref 1, .lit [' ', 'w', 'e', 'e', 'k']])],
  rxCombined := some (.seqs [.grp 1 (.alts [.bos, .cls true [.letter, .mark, .digit], .lit ['_']]), .grp 2 (.alts [.seqs [.number, .lit [' ', 'm', 'i', 'n', 'g', 'g', 'u', ' ', 'y', 'a', 'n', 'g', ' ', 'l', 'a', 'l', 'u']], .seqs [.number, .lit [' ', 'b', 'u', 'l', 'a', 'n', ' ', 'y', 'a', 'n', 'g', ' ', 'l', 'a', 'l', 'u']], .seqs [.number, .lit [' ', 'd', 'e', 't', 'i', 'k', ' ', 'y', 'a', 'n', 'g', ' ', 'l', 'a', 'l', 'u']], .seqs [.number, .lit [' ', 'm', 'e', 'n', 'i', 't', ' ', 'y', 'a', 'n', 'g', ' ', 'l', 'a', 'l', 'u']], .seqs [.number, .lit [' ', 't', 'a', 'h', 'u', 'n', ' ', 'y', 'a', 'n', 'g', ' ', 'l', 'a', 'l', 'u']], .seqs [.number, .lit [' ', 'h', 'a', 'r', 'i', ' ', 'y', 'a', 'n', 'g', ' ', 'l', 'a', 'l', 'u']], .seqs [.number, .lit [' ', 'j', 'a', 'm', ' ', 'y', 'a', 'n', 'g', ' ', 'l', 'a', 'l', 'u']], .seqs [.lit ['d', 'a', 'l', 'a', 'm', ' '], .number, .lit [' ', 'm', 'i', 'n', 'g', 'g', 'u']], .seqs [.number, .lit [' ', 'm', 'i', 'n', 'g', 'g', 'u', ' ', 'l', 'a', 'l', 'u']], .seqs [.lit ['d', 'a', 'l', 'a', 'm', ' '], .number, .lit [' ', 'b', 'u', 'l', 'a', 'n']], .seqs [.lit ['d', 'a', 'l', 'a', 'm', ' '], .number, .lit [' ', 'd', 'e', 't', 'i', 'k']], .seqs [.lit ['d', 'a', 'l', 'a', 'm', ' '], .number, .lit [' ', 'm', 'e', 'n', 'i', 't']], .seqs [.lit ['d', 'a', 'l', 'a', 'm', ' '], .number, .lit [' ', 't', 'a', 'h', 'u', 'n']], .seqs [.number, .lit [' ', 'b', 'u', 'l', 'a', 'n', ' ', 'l', 'a', 'l', 'u']], .seqs [.number, .lit [' ', 't', 'a', 'h', 'u', 'n', ' ', 'l', 'a', 'l', 'u']], .seqs [.lit ['d', 'a', 'l', 'a', 'm', ' '], .number, .lit [' ', 'h', 'a', 'r', 'i']], .seqs [.lit ['d', 'a', 'l', 'a', 'm', ' '], .number, .lit [' ', 'j', 'a', 'm']], .seqs [.number, .lit [' ', 'b', 'l', 'n', ' ', 'l', 'a', 'l', 'u']], .seqs [.number, .lit [' ', 'd', 't', 'k', ' ', 'l', 'a', 'l', 'u']], .seqs [.number, .lit [' ', 'j', 'a', 'm', ' ', 'l', 'a', 'l', 'u']], .seqs [.number, .lit [' ', 'm', 'g', 'g', ' ', 'l', 'a', 'l', 'u']], .seqs [.number, .lit [' ', 'm', 'n', 't', ' ', 'l', 'a', 'l', 'u']], .seqs [.number, .lit [' ', 't', 'h', 'n', ' ', 'l', 'a', 'l', 'u']], .seqs [.lit ['d', 'a', 'l', 'a', 'm', ' '], .number, .lit [' ', 'h']], .seqs [.lit ['d', 'l', 'm', ' '], .number, .lit [' ', 'b', 'l', 'n']], .seqs [.lit ['d', 'l', 'm', ' '], .number, .lit [' ', 'd', 't', 'k']], .seqs [.lit ['d', 'l', 'm', ' '], .number, .lit [' ', 'm', 'g', 'g']], .seqs [.lit ['d', 'l', 'm', ' '], .number, .lit [' ', 'm', 'n', 't']], .seqs [.lit ['d', 'l', 'm', ' '], .number, .lit [' ', 't', 'h', 'n']], .seqs [.number, .lit [' ', 'h', ' ', 'l', 'a', 'l', 'u']], .seqs [.number, .lit [' ', 'm', 'i', 'n', 'g', 'g', 'u']]]), .grp 3 (.alts [.eos, .cls true [.letter, .mark, .digit], .lit ['_']])], 3),
  rxExact := some (.seqs [.bos, .grp 1 (.alts [.seqs [.number, .lit [' ', 'm', 'i', 'n', 'g', 'g', 'u', ' ', 'y', 'a', 'n', 'g', ' ', 'l', 'a', 'l', 'u']], .seqs [.number, .lit [' ', 'b', 'u', 'l', 'a', 'n', ' ', 'y', 'a', 'n', 'g', ' ', 'l', 'a', 'l', 'u']], .seqs [.number, .lit [' ', 'd', 'e', 't', 'i', 'k', ' ', 'y', 'a', 'n', 'g', ' ', 'l', 'a', 'l', 'u']], .seqs [.number, .lit [' ', 'm', 'e', 'n', 'i', 't', ' ', 'y', 'a', 'n', 'g', ' ', 'l', 'a', 'l', 'u']], .seqs [.number, .lit [' ', 't', 'a', 'h', 'u', 'n', ' ', 'y', 'a', 'n', 'g', ' ', 'l', 'a', 'l', 'u']], .seqs [.number, .lit [' ', 'h', 'a', 'r', 'i', ' ', 'y', 'a', 'n', 'g', ' ', 'l', 'a', 'l', 'u']], .seqs [.number, .lit [' ', 'j', 'a', 'm', ' ', 'y', 'a', 'n', 'g', ' ', 'l', 'a', 'l', 'u']], .seqs [.lit ['d', 'a', 'l', 'a', 'm', ' '], .number, .lit [' ', 'm', 'i', 'n', 'g', 'g', 'u']], .seqs [.number, .lit [' ', 'm', 'i', 'n', 'g', 'g', 'u', ' ', 'l', 'a', 'l', 'u']], .seqs [.lit ['d', 'a', 'l', 'a', 'm', ' '], .number, .lit [' ', 'b', 'u', 'l', 'a', 'n']], .seqs [.lit ['d', 'a', 'l', 'a', 'm', ' '], .number, .lit [' ', 'd', 'e', 't', 'i', 'k']], .seqs [.lit ['d', 'a', 'l', 'a', 'm', ' '], .number, .lit [' ', 'm', 'e', 'n', 'i', 't']], .seqs [.lit ['d', 'a', 'l', 'a', 'm', ' '], .number, .lit [' ', 't', 'a', 'h', 'u', 'n']], .seqs [.number, .lit [' ', 'b', 'u', 'l', 'a', 'n', ' ', 'l', 'a', 'l', 'u']], .seqs [.number, .lit [' ', 't', 'a', 'h', 'u', 'n', ' ', 'l', 'a', 'l', 'u']], .seqs [.lit ['d', 'a', 'l', 'a', 'm', ' '], .number, .lit [' ', 'h', 'a', 'r', 'i']], .seqs [.lit ['d', 'a', 'l', 'a', 'm', ' '], .number, .lit [' ', 'j', 'a', 'm']], .seqs [.number, .lit [' ', 'b', 'l', 'n', ' ', 'l', 'a', 'l', 'u']], .seqs [.number, .lit [' ', 'd', 't', 'k', ' ', 'l', 'a', 'l', 'u']], .seqs [.number, .lit [' ', 'j', 'a', 'm', ' ', 'l', 'a', 'l', 'u']], .seqs [.number, .lit [' ', 'm', 'g', 'g', ' ', 'l', 'a', 'l', 'u']], .seqs [.number, .lit [' ', 'm', 'n', 't', ' ', 'l', 'a', 'l', 'u']], .seqs [.number, .lit [' ', 't', 'h', 'n', ' ', 'l', 'a', 'l', 'u']], .seqs [.lit ['d', 'a', 'l', 'a', 'm', ' '], .number, .lit [' ', 'h']], .seqs [.lit ['d', 'l', 'm', ' '], .number, .lit [' ', 'b', 'l', 'n']], .seqs [.lit ['d', 'l', 'm', ' '], .number, .lit [' ', 'd', 't', 'k']], .seqs [.lit ['d', 'l', 'm', ' '], .number, .lit [' ', 'm', 'g', 'g']], .seqs [.lit ['d', 'l', 'm', ' '], .number, .lit [' ', 'm', 'n', 't']], .seqs [.lit ['d', 'l', 'm', ' '], .number, .lit [' ', 't', 'h', 'n']], .seqs [.number, .lit [' ', 'h', ' ', 'l', 'a', 'l', 'u']], .seqs [.number, .lit [' ', 'm', 'i', 'n', 'g', 'g', 'u']]]), .eos]),
  knownWords :=
   [['b', 'u', 'l', 'a', 'n', ' ', 'b', 'e', 'r', 'i', 'k', 'u', 't', 'n', 'y', 'a'], ['k', 'e', 'm', 'a', 'r', 'i', 'n', ' ', 'l', 'u', 's', 'a'], ['m', 'i', 'n', 'g', 'g', 'u', ' ', 'd', 'e', 'p', 'a', 'n'], ['m', 'i', 'n', 'g', 'g', 'u', ' ', 'l', 'a', 'l', 'u'], ['t', 'a', 'h', 'u', 'n', ' ', 'd', 'e', 'p', 'a', 'n'], ['b', 'u', 'l', 'a', 'n', ' ', 'l', 'a', 'l', 'u'], ['m', 'i', 'n', 'g', 'g', 'u', ' ', 'i', 'n', 'i'], ['t', 'a', 'h', 'u', 'n', ' ', 'l', 'a', 'l', 'u'], ['b', 'a', 'r', 'u', ' ', 's', 'a', 'j', 'a'], ['b', 'u', 'l', 'a', 'n', ' ', 'i', 'n', 'i'], ['m', 'e', 'n', 'i', 't', ' ', 'i', 'n', 'i'], ['s', 'e', 'p', 't', 'e', 'm', 'b', 'e', 'r'], ['t', 'a', 'h', 'u', 'n', ' ', 'i', 'n', 'i'], ['d', 'e', 's', 'e', 'm', 'b', 'e', 'r'], ['f', 'e', 'b', 'r', 'u', 'a', 'r', 'i'], ['h', 'a', 'r', 'i', ' ', 'i', 'n', 'i'], ['n', 'o', 'v', 'e', 'm', 'b', 'e', 'r'], ['s', 'e', 'k', 'a', 'r', 'a', 'n', 'g'], ['s', 'e', 'm', 'i', 'n', 'g', 'g', 'u'], ['a', 'g', 'u', 's', 't', 'u', 's'], ['j', 'a', 'm', ' ', 'i', 'n', 'i'], ['j', 'a', 'n', 'u', 'a', 'r', 'i'], ['k', 'e', 'm', 'a', 'r', 'i', 'n'], ['o', 'k', 't', 'o', 'b', 'e', 'r'], ['s', 'e', 'b', 'u', 'l', 'a', 'n'], ['s', 'e', 't', 'a', 'h', 'u', 'n'], ['t', 'a', 'n', 'g', 'g', 'a', 'l'], ['m', 'i', 'n', 'g', 'g', 'u'], ['s', 'e', 'h', 'a', 'r', 'i'], ['s', 'e', 'l', 'a', 's', 'a'], ['a', 'p', 'r', 'i', 'l'], ['b', 'e', 's', 'o', 'k'], ['b', 'u', 'l', 'a', 'n'], ['d', 'a', 'l', 'a', 'm'], ['d', 'e', 't', 'i', 'k'], ['j', 'u', 'm', 'a', 't'], ['k', 'a', 'm', 'i', 's'], ['m', 'a', 'r', 'e', 't'], ['m', 'e', 'n', 'i', 't'], ['p', 'u', 'k', 'u', 'l'], ['s', 'a', 'b', 't', 'u'], ['s', 'e', 'n', 'i', 'n'], ['t', 'a', 'h', 'u', 'n'], ['a', 'h', 'a', 'd'], ['h', 'a', 'r', 'i'], ['j', 'u', 'l', 'i'], ['j', 'u', 'n', 'i'], ['l', 'a', 'l', 'u'], ['r', 'a', 'b', 'u'], ['s', 'e', 'p', 't'], ['y', 'a', 'n', 'g'], ['a', 'g', 't'], ['a', 'g', 'u'], ['a', 'p', 'r'], ['b', 'l', 'n'], ['d', 'e', 's'], ['d', 't', 'k'], ['f', 'e', 'b'], ['g', 'm', 't'], ['j', 'a', 'm'], ['j', 'a', 'n'], ['j', 'u', 'l'], ['j', 'u', 'm'], ['j', 'u', 'n'], ['k', 'a', 'm'], ['m', 'a', 'r'], ['m', 'e', 'i'], ['m', 'g', 'g'], ['m', 'i', 'n'], ['m', 'n', 't'], ['n', 'o', 'v'], ['o', 'k', 't'], ['r', 'a', 'b'], ['s', 'a', 'b'], ['s', 'e', 'l'], ['s', 'e', 'n'], ['s', 'e', 'p'], ['t', 'h', 'n'], ['u', 't', 'c'], ['a', 'm'], ['p', 'm'], [' '], ['\''], ['+'], [','], ['-'], ['.'], ['/'], [':'], [';'], ['@'], ['['], [']'], ['d'], ['h'], ['j'], ['m'], ['z'], ['|']] }

end Verif.Data
