import Verif.Go.Time
/-!
# Configuration, periods, results

Models date/date.go and internal/setting/config.go.
-/
set_option autoImplicit false
namespace Verif.Model
open Verif.Go

/-- date/date.go:11-21 `Period`. -/
inductive Period where
  | none | second | minute | hour | day | month | year
deriving DecidableEq, Repr

/-- date/date.go:13-21, the `iota` values. -/
def Period.rank : Period → Nat
  | .none => 0 | .second => 1 | .minute => 2 | .hour => 3 | .day => 4 | .month => 5 | .year => 6

/-- Go's builtin `min` on `Period` (used in absolute/parser.go:318-320, relative/parser.go:57). -/
def Period.min (a b : Period) : Period := if a.rank ≤ b.rank then a else b

/-- date/date.go:36-38 `IsTime`. -/
def Period.isTime (p : Period) : Bool := p == .second || p == .minute || p == .hour

/-- date/date.go:41-45 `Date`. -/
structure DateRes where
  locale : List Char := []
  period : Period
  time : Time

/-- date/date.go: `date.Date{}`. -/
def DateRes.zero : DateRes := { period := .none, time := Time.zero }

/-- date/date.go:48-50 `IsZero`. -/
def DateRes.isZero (d : DateRes) : Bool := d.period == .none || d.time.isZero

/-- internal/setting/config.go:8-14. -/
inductive DateSource where
  | current | past | future
deriving DecidableEq, Repr

/-- internal/setting/config.go:16-22. -/
inductive DayOfMonth where
  | current | first | last
deriving DecidableEq, Repr

/-- internal/setting/config.go:24-30. -/
inductive MonthOfYear where
  | current | first | last
deriving DecidableEq, Repr

/-- internal/setting/config.go:32-52 `Configuration` (internal).  -/
structure Cfg where
  dateOrder : List Char := []
  currentTime : Time := Time.zero
  defaultTz : Option Loc := none
  dayOfMonth : DayOfMonth := .current
  monthOfYear : MonthOfYear := .current
  dateSource : DateSource := .current
  strict : Bool := false
  requiredParts : List (List Char) := []
  timeAsPeriod : Bool := false
  preserveEndOfMonth : Bool := false
  skipTokens : List (List Char) := []
  defaultLanguages : List (List Char) := []

/-- internal/timezone/tz-offsets.go:11-15 `OffsetData`; a non-zero value always has its regular
expression set, so `IsZero` (lines 17-19) is `none`. -/
structure Tz where
  name : String
  offset : Int
deriving DecidableEq, Repr

end Verif.Model
