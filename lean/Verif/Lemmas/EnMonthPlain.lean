import Verif.Lemmas.EnMonth
/-! Helper lemmas: dates with month names pass the stages before the individual parsers. -/
set_option autoImplicit false
namespace Verif.Lemmas

theorem months_plain_1 : monthsPass .plain "1".toList = true := by decide +kernel
theorem months_plain_2 : monthsPass .plain "12".toList = true := by decide +kernel

end Verif.Lemmas
