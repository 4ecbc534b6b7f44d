import Verif.Lemmas.EnMonth
/-! Helper lemmas: dates with month names pass the stages before the individual parsers. -/
set_option autoImplicit false
namespace Verif.Lemmas

theorem months_comma_1 : monthsPass .comma "1".toList = true := by decide +kernel
theorem months_comma_2 : monthsPass .comma "12".toList = true := by decide +kernel

end Verif.Lemmas
