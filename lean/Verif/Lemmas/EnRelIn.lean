import Verif.Lemmas.EnRel
/-! Helper lemmas: relative dates pass the stages before the individual parsers. -/
set_option autoImplicit false
namespace Verif.Lemmas
open Verif.Spec

theorem rel_within_1 : relPass .within (unitNames ++ unitAbbreviations) "1".toList = true := by decide +kernel
theorem rel_within_2 : relPass .within (unitNames ++ unitAbbreviations) "12".toList = true := by decide +kernel
theorem rel_within_3 : relPass .within (unitNames ++ unitAbbreviations) "123".toList = true := by decide +kernel

end Verif.Lemmas
