import Verif.Go.Time
/-! # internal/dateutil/dateutil.go -/
set_option autoImplicit false
namespace Verif.Model
open Verif.Go

/-- internal/dateutil/dateutil.go:6-16 `IsLeapYear`.  Go's `%` truncates, but only comparison with
0 matters. -/
def isLeapYear (year : Int) : Bool :=
  if year.tmod 400 = 0 then true
  else if year.tmod 100 = 0 then false
  else if year.tmod 4 = 0 then true
  else false

/-- internal/dateutil/dateutil.go:26-31, the loop of `GetLeapYear`; `none` when the given number of
iterations does not reach a leap year. -/
def leapLoop (step : Int) : Nat → Int → Option Int
  | 0, _ => none
  | n + 1, year => if isLeapYear (year + step) then some (year + step) else leapLoop step n (year + step)

/-- internal/dateutil/dateutil.go:20-32 `GetLeapYear`.  The Go loop has no bound; 8 iterations
always suffice (`leapLoop_some`), so the default of `getD` is never used. -/
def getLeapYear (year : Int) (toFuture : Bool) : Int :=
  (leapLoop (if toFuture then 1 else -1) 8 year).getD year

/-- internal/dateutil/dateutil.go:35-38 `GetLastDayOfMonth`. -/
def getLastDayOfMonth (year month : Int) : Int :=
  ((goDate year month 1 0 0 0 0 Loc.utc).addDate 0 1 (-1)).day

end Verif.Model
