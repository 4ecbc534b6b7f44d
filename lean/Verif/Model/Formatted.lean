import Verif.Go.TimeFormat
import Verif.Model.Common
import Verif.Model.Timezone
/-! # internal/parser/formatted -/
set_option autoImplicit false
namespace Verif.Model
open Verif.Go

/-- formatted/parser.go:18-28: the zone of the text (`tz`, what `timezone.PopTzOffset` found), or the default zone, or UTC. -/
def formattedZone (cfg : Cfg) (tz : Option Tz) : Loc :=
  match tz with
  | some z => Loc.fixed z.name z.offset
  | none => match cfg.defaultTz with
    | some l => l
    | none => Loc.utc

/-- formatted/parser.go:31-34: the current time (`sysNow` is `time.Now().UTC()`). -/
def formattedNow (cfg : Cfg) (sysNow : Time) : Time := if cfg.currentTime.isZero then sysNow else cfg.currentTime

/-- formatted/parser.go:37. -/
def checker : Time := goDate 12 3 4 5 6 7 8 Loc.utc

/-- formatted/parser.go:47-48. -/
def formatHasDay (layout : List Char) : Bool := containsStr ['4'] (timeFormat layout checker)
/-- formatted/parser.go:47, 49. -/
def formatHasMonth (layout : List Char) : Bool :=
  containsStr ['3'] (timeFormat layout checker) || containsStr ['M', 'a', 'r'] (timeFormat layout checker)

/-- formatted/parser.go:51-61: month and day that the layout lacks. -/
def formattedFill (cfg : Cfg) (sysNow : Time) (layout : List Char) (t : Time) (period : Period) : Time × Period :=
  if !formatHasMonth layout && !formatHasDay layout then
    (applyDayFromConfig cfg sysNow (applyMonthFromConfig cfg sysNow t none) none, .year)
  else if !formatHasMonth layout then (applyMonthFromConfig cfg sysNow t none, .year)
  else if !formatHasDay layout then (applyDayFromConfig cfg sysNow t none, .month)
  else (t, period)

/-- formatted/parser.go:63-68: the year that the layout lacks. -/
def formattedYear (now t : Time) : Time :=
  if t.year = 0 then goDate now.year t.month t.day t.hour t.minute t.second t.nsec t.loc else t

/-- formatted/parser.go:39-72: the loop over the layouts. -/
def formattedLoop (cfg : Cfg) (sysNow : Time) (l : Loc) (str : List Char) : List (List Char) → DateRes
  | [] => DateRes.zero
  | layout :: r =>
    match timeParseIn layout str l with
    | none => formattedLoop cfg sysNow l str r
    | some t =>
      let f := formattedFill cfg sysNow layout t .day
      { period := f.2, time := formattedYear (formattedNow cfg sysNow) f.1 }

/-- formatted/parser.go:14-72 `Parse`; `popTz` is `timezone.PopTzOffset`. -/
def formattedParse (popTz : List Char → List Char × Option Tz) (cfg : Cfg) (sysNow : Time) (str : List Char)
    (formats : List (List Char)) : DateRes :=
  formattedLoop cfg sysNow (formattedZone cfg (popTz str).2) str formats

end Verif.Model
