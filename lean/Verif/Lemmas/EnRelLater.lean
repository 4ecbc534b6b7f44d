import Verif.Lemmas.EnRel
/-! Helper lemmas: relative dates pass the stages before the individual parsers. -/
set_option autoImplicit false
namespace Verif.Lemmas
open Verif.Spec

theorem rel_later_1 : relPass .later unitNames "1".toList = true := by decide +kernel
theorem rel_later_2 : relPass .later unitNames "12".toList = true := by decide +kernel
theorem rel_later_3 : relPass .later unitNames "123".toList = true := by decide +kernel

end Verif.Lemmas
