import Verif.Go.TimeParse
import Verif.Go.Strings
import Verif.Model.Setting
import Verif.Model.DateUtil
/-! # internal/parser/common -/
set_option autoImplicit false
namespace Verif.Model
open Verif.Go

/-- common/apply-day.go:10-42 `ApplyDayFromConfig` with the optional argument `currentDay` given as
`some`; `sysNow` is `time.Now().UTC()`. -/
def applyDayFromConfig (cfg : Cfg) (sysNow : Time) (t : Time) (currentDay : Option Int) : Time :=
  let newDay := match cfg.dayOfMonth with
    | .first => 1
    | .last => (t.addDate 0 1 (-t.day)).day
    | .current => match currentDay with
      | some d => d
      | none => if cfg.currentTime.isZero then sysNow.day else cfg.currentTime.day
  let last := getLastDayOfMonth t.year t.month
  let newDay := if newDay > last then last else newDay
  goDate t.year t.month newDay t.hour t.minute t.second t.nsec t.loc

/-- common/apply-month.go:9-35 `ApplyMonthFromConfig`. -/
def applyMonthFromConfig (cfg : Cfg) (sysNow : Time) (t : Time) (currentMonth : Option Int) : Time :=
  let newMonth := match cfg.monthOfYear with
    | .first => 1
    | .last => 12
    | .current => match currentMonth with
      | some m => m
      | none => if cfg.currentTime.isZero then sysNow.month else cfg.currentTime.month
  goDate t.year newMonth t.day t.hour t.minute t.second t.nsec t.loc

/-- common/strict-check.go:10-32 `CheckStrictParsing`; `missing` is the set of missing parts, the
result is "no error". -/
def checkStrictParsing (cfg : Cfg) (missing : List (List Char)) : Bool :=
  if cfg.strict && !missing.isEmpty then false
  else cfg.requiredParts.all (fun p => !missing.contains p)

/-- common/time.go:13-25, the table of time formats. -/
def timeFormats : List (List Char × Period) :=
  [("15:4:5".toList, .second), ("3:4:5 PM".toList, .second), ("15:4".toList, .minute),
   ("3:4 PM".toList, .minute), ("3 PM".toList, .hour), ("15:4:5.999999".toList, .second),
   ("3:4:5.999999 PM".toList, .second), ("15:4 PM".toList, .minute)]

/-- common/time.go:29-36, the loop over the formats. -/
def parseTimeLoop (v : List Char) : List (List Char × Period) → Option (Time × Period)
  | [] => none
  | (f, p) :: r =>
    match timeParse f v with
    | some t => some (t, p)
    | none => parseTimeLoop v r

/-- common/time.go:12-40 `ParseTime`; `none` is the error.  Upper casing is modelled for ASCII only:
no non-ASCII character has one of the characters the formats need (digits, `:`, `.`, `,`, space, A, P, M) as its
upper case. -/
def parseTime (s : List Char) : Option (Time × Period) :=
  parseTimeLoop (toUpper (trimSpace s)) timeFormats

end Verif.Model
