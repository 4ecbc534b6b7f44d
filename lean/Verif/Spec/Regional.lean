import Verif.Spec.Whole
import Verif.Data.Pats
/-! # Specification: regional locales -/
set_option autoImplicit false
namespace Verif.Spec
open Verif.Go Verif.Model Verif.Data

/-- internal/data/en.go: the regional locales of English that are given by their name and date order only. -/
def englishRegions : List String :=
  ["en-001", "en-150", "en-AG", "en-AI", "en-AS", "en-AT", "en-AU", "en-BB", "en-BE", "en-BI", "en-BM", "en-BS",
   "en-BW", "en-BZ", "en-CC", "en-CH", "en-CK", "en-CM", "en-CX", "en-CY", "en-DE", "en-DG", "en-DK", "en-DM", "en-ER",
   "en-FI", "en-FJ", "en-FK", "en-FM", "en-GB", "en-GD", "en-GG", "en-GH", "en-GI", "en-GM", "en-GU", "en-GY", "en-HK",
   "en-IE", "en-IL", "en-IM", "en-IN", "en-IO", "en-JE", "en-JM", "en-KE", "en-KI", "en-KN", "en-KY", "en-LC", "en-LR",
   "en-LS", "en-MG", "en-MH", "en-MO", "en-MP", "en-MS", "en-MT", "en-MU", "en-MW", "en-MY", "en-NA", "en-NF", "en-NG",
   "en-NL", "en-NR", "en-NU", "en-NZ", "en-PG", "en-PH", "en-PK", "en-PN", "en-PR", "en-PW", "en-RW", "en-SB", "en-SC",
   "en-SD", "en-SE", "en-SH", "en-SI", "en-SL", "en-SS", "en-SX", "en-SZ", "en-TC", "en-TK", "en-TO", "en-TT", "en-TV",
   "en-TZ", "en-UG", "en-UM", "en-VC", "en-VG", "en-VI", "en-VU", "en-WS", "en-ZA", "en-ZM", "en-ZW"]

/-- The data of such a locale. -/
def regionalEnglish (n : Name) : LangData := mergeLang (some enData) { name := n }

/-- The first is a regional locale of the second. -/
def RegionOf (r n : Name) : Prop := ∃ x ∈ allLangs, x.1.name = r ∧ ∃ p, x.2 = some p ∧ p.name = n

end Verif.Spec
