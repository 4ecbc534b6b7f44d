import Verif.Lemmas.EnMonth
import Verif.Spec.Incomplete
/-! Helper lemmas: incomplete English dates pass the stages before the individual parsers. -/
set_option autoImplicit false
namespace Verif.Lemmas
open Verif.Go Verif.Model Verif.Data Verif.Spec

def dayMonthsPass (f : Bool) (d : List Char) : Bool :=
  monthNames.all fun x => passesDate (dayMonthText f d x.1) (dayMonthText f d (fullName x.2))

theorem dayMonths_1 : dayMonthsPass true "1".toList = true := by decide +kernel
theorem dayMonths_2 : dayMonthsPass true "12".toList = true := by decide +kernel
theorem dayMonths_3 : dayMonthsPass false "1".toList = true := by decide +kernel
theorem dayMonths_4 : dayMonthsPass false "12".toList = true := by decide +kernel
theorem monthYears : dayMonthsPass false "3456".toList = true := by decide +kernel
theorem yearMonths : dayMonthsPass true "3456".toList = true := by decide +kernel
theorem monthsAlone : (monthNames.all fun x => passesDate x.1 (fullName x.2)) = true := by decide +kernel
theorem yearAlone : passesDate "3456".toList "3456".toList = true := by decide +kernel

/-- The full name of a weekday. -/
def fullWeekday (n : Int) : List Char := ((weekdays.find? fun x => x.2 == n).map (·.1)).getD []
theorem weekdaysAlone : (weekdays.all fun x => passesDate x.1 (fullWeekday x.2)) = true := by decide +kernel

/-- Numeric dates with numbers of at most two digits. -/
def shortTmpl (a b c : Nat) (sep : Char) : List Char := "12".toList.take a ++ sep :: ("34".toList.take b ++ sep :: "56".toList.take c)
def shortsPass (sep : Char) : Bool :=
  [1, 2].all fun a => [1, 2].all fun b => [1, 2].all fun c => passesDate (shortTmpl a b c sep) (shortTmpl a b c sep)
theorem shorts_slash : shortsPass '/' = true := by decide +kernel
theorem shorts_dot : shortsPass '.' = true := by decide +kernel
theorem shorts_dash : shortsPass '-' = true := by decide +kernel

end Verif.Lemmas
