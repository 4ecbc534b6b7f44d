import Verif.Lemmas.EnRel
/-! Helper lemmas: relative dates pass the stages before the individual parsers. -/
set_option autoImplicit false
namespace Verif.Lemmas
open Verif.Spec

theorem rel_ago_1 : relPass .ago (unitNames ++ unitAbbreviations) "1".toList = true := by decide +kernel
theorem rel_ago_2 : relPass .ago (unitNames ++ unitAbbreviations) "12".toList = true := by decide +kernel
theorem rel_ago_3 : relPass .ago (unitNames ++ unitAbbreviations) "123".toList = true := by decide +kernel

end Verif.Lemmas
