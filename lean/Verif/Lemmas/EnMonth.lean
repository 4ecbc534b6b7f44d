import Verif.Lemmas.Tags
/-! Helper definitions: dates with month names as texts whose digits stand for others. -/
set_option autoImplicit false
namespace Verif.Lemmas
open Verif.Go Verif.Model Verif.Data Verif.Spec

/-- The full name of a month. -/
def fullName (n : Int) : List Char := ((monthNames.find? fun x => x.2 == n).map (·.1)).getD []

/-- As translated. -/
def _root_.Verif.Spec.MonthForm.writeOut (f : MonthForm) (d mon y : List Char) : List Char :=
  match f with
  | .dayFirst => d ++ ' ' :: (mon ++ ' ' :: y)
  | .comma => mon ++ ' ' :: (d ++ ' ' :: y)
  | .plain => mon ++ ' ' :: (d ++ ' ' :: y)

/-- Dates in a form pass, with the days written like `d`. -/
def monthsPass (f : MonthForm) (d : List Char) : Bool :=
  monthNames.all fun x => passesDate (f.write d x.1 "3456".toList) (f.writeOut d (fullName x.2) "3456".toList)

end Verif.Lemmas
