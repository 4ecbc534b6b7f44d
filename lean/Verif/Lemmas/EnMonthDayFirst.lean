import Verif.Lemmas.EnMonth
/-! Helper lemmas: dates with month names pass the stages before the individual parsers. -/
set_option autoImplicit false
namespace Verif.Lemmas

theorem months_dayFirst_1 : monthsPass .dayFirst "1".toList = true := by decide +kernel
theorem months_dayFirst_2 : monthsPass .dayFirst "12".toList = true := by decide +kernel

end Verif.Lemmas
