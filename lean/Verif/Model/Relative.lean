import Verif.Go.Regexp
import Verif.Go.Float
import Verif.Model.Common
import Verif.Model.Strutil
/-! # internal/parser/relative/parser.go -/
set_option autoImplicit false
namespace Verif.Model
open Verif.Go

/-- A lower case ASCII letter under `(?i)`: Go's simple case folding, in which the Kelvin sign is a `k` and
the long s an `s`. -/
def ciMatch (c x : Char) : Bool :=
  toLowerC x == c || (c == 'k' && x == '\u212a') || (c == 's' && x == '\u017f')

/-- A word under `(?i)`. -/
def rxCi : List Char → Rx
  | [] => .eps
  | c :: r => .seq (.chr (ciMatch c)) (rxCi r)

/-- relative/parser.go:24 `relativeUnits`. -/
def relativeUnits : List (List Char) :=
  ["decade".toList, "year".toList, "month".toList, "week".toList, "day".toList, "hour".toList,
   "minute".toList, "second".toList]

/-- `(?:decade|year|…)` under `(?i)`. -/
def rxUnits : Rx := Rx.alts (relativeUnits.map rxCi)

/-- relative/parser.go:19 `rxIn`. -/
def rxIn : Rx := .seq .wb (.seq (rxCi "in".toList) .wb)
/-- relative/parser.go:20 `rxAgo`. -/
def rxAgo : Rx := .seq .wb (.seq (rxCi "ago".toList) .wb)
/-- relative/parser.go:21 `rxInAgo`. -/
def rxInAgo : Rx := .seq .wb (.seq (.alt (rxCi "ago".toList) (rxCi "in".toList)) .wb)

/-- `\d+[.,]?\d*` -/
def rxAmount : Rx :=
  .seq (Rx.plus Rx.digit) (.seq (.opt (.chr fun c => c == '.' || c == ',')) (.star Rx.digit))

/-- relative/parser.go:22 `rxRelativePattern`. -/
def rxRelativePattern : Rx := .seq (.grp 1 rxAmount) (.seq (.star Rx.space) (.seq (.grp 2 rxUnits) .wb))

/-- relative/parser.go:23 `rxRelativeSkipWord`. -/
def rxRelativeSkipWord : Rx :=
  .seq .bos (Rx.alts (relativeUnits.map rxCi ++
    [rxCi "ago".toList, rxCi "in".toList, Rx.plus Rx.digit, .chr (· == ':'),
     .seq (.chr fun c => ciMatch 'a' c || ciMatch 'p' c) (.chr (ciMatch 'm'))]))

/-- relative/parser.go:18 `rxNonWord`. -/
def rxNonWord : Rx := .chr fun c => !isWordC c

/-- `map[string]float64` as used by the parser. -/
abbrev FMap := List (List Char × F64)

def FMap.get (m : FMap) (k : List Char) : Option F64 := (m.find? (·.1 == k)).map (·.2)
def FMap.del (m : FMap) (k : List Char) : FMap := m.filter (fun e => e.1 != k)
def FMap.set (m : FMap) (k : List Char) (v : F64) : FMap := (k, v) :: m.del k
/-- Reading a key that is not there gives 0. -/
def FMap.val (m : FMap) (k : List Char) : F64 := (m.get k).getD (.fin 0)

/-- relative/parser.go:303-307 `addMapValue`, for a finite value. -/
def addMapValue (m : FMap) (k : List Char) (v : Nat) : FMap :=
  if v = 0 then m else m.set k ((m.val k).add (.fin v))

/-- relative/parser.go:293-301 `splitFraction` of a finite value: whole part and fraction.  (The
subtraction is exact.) -/
def splitFraction (n : Nat) : Nat × Nat := (n / fOne * fOne, n % fOne)

/-- `splitFraction(fraction * k)` for a fraction below 1: finite. -/
def splitScaled (f k : Nat) : Nat × Nat :=
  match F64.scale k (.fin f) with
  | .fin n => splitFraction n
  | .inf => (0, 0)

/-- relative/parser.go:184-289: the loop body for one unit.  A value without fraction is not touched (an
infinite value has none).  The branches for negative values (lines 203-206 etc.) cannot be taken: amounts are
written without a sign. -/
def spreadUnit (m : FMap) (unit : List Char) : FMap :=
  match m.get unit with
  | none => m
  | some .inf => m
  | some (.fin n) =>
    if (splitFraction n).2 = 0 then m
    else
      let v := (splitFraction n).1
      let f := (splitFraction n).2
      if unit = "year".toList then
        let mo := splitScaled f 12
        let da := splitScaled mo.2 30
        let ho := splitScaled da.2 24
        let mi := splitScaled ho.2 60
        let se := splitScaled mi.2 60
        addMapValue (addMapValue (addMapValue (addMapValue (addMapValue (m.set "year".toList (.fin v))
          "month".toList mo.1) "day".toList da.1) "hour".toList ho.1) "minute".toList mi.1) "second".toList se.1
      else if unit = "month".toList then
        let da := splitScaled f 30
        let ho := splitScaled da.2 24
        let mi := splitScaled ho.2 60
        let se := splitScaled mi.2 60
        addMapValue (addMapValue (addMapValue (addMapValue (m.set "month".toList (.fin v))
          "day".toList da.1) "hour".toList ho.1) "minute".toList mi.1) "second".toList se.1
      else if unit = "day".toList then
        let ho := splitScaled f 24
        let mi := splitScaled ho.2 60
        let se := splitScaled mi.2 60
        addMapValue (addMapValue (addMapValue (m.set "day".toList (.fin v))
          "hour".toList ho.1) "minute".toList mi.1) "second".toList se.1
      else if unit = "hour".toList then
        let mi := splitScaled f 60
        let se := splitScaled mi.2 60
        addMapValue (addMapValue (m.set "hour".toList (.fin v)) "minute".toList mi.1) "second".toList se.1
      else if unit = "minute".toList then
        let se := splitScaled f 60
        addMapValue (m.set "minute".toList (.fin v)) "second".toList se.1
      else if unit = "second".toList then
        -- `math.Round(value + fraction)`: the sum is the value itself; halves are rounded up
        m.set "second".toList (.fin ((2 * n + fOne) / (2 * fOne) * fOne))
      else m

/-- relative/parser.go:167-169: `strconv.ParseFloat(strings.Replace(s, ",", ".", -1), 64)`. -/
def amountValue (s : List Char) : F64 :=
  F64.ofDecimal (s.takeWhile Char.isDigit) ((s.dropWhile Char.isDigit).drop 1)

/-- relative/parser.go:163-291 `getRelativeDurations`. -/
def getRelativeDurations (s : List Char) : FMap :=
  let m : FMap := (rxRelativePattern.findAll s).1.foldl
    (fun m x => m.set (x.after.cap 2) (amountValue (x.after.cap 1))) []
  let m := match m.get "decade".toList with
    | some d => (m.set "year".toList ((m.val "year".toList).add (d.scale 10))).del "decade".toList
    | none => m
  let m := match m.get "week".toList with
    | some w => (m.set "day".toList ((m.val "day".toList).add (w.scale 7))).del "week".toList
    | none => m
  relativeUnits.foldl spreadUnit m

/-- relative/parser.go:146-161 `allWordsAreUnits`. -/
def allWordsAreUnits (s : List Char) : Bool :=
  (rxNonWord.split (sanitizeSpaces s)).all fun w => w.isEmpty || rxRelativeSkipWord.matches w

/-- relative/parser.go:127-144 `addDate`. -/
def relAddDate (cfg : Cfg) (t : Time) (years months days : Int) : Time :=
  if !cfg.preserveEndOfMonth then t.addDate years months days
  else
    let y := t.year + years
    let m := t.month + months
    let lastDay := (goDate y (m + 1) 0 0 0 0 0 Loc.utc).day
    let d := if t.day > lastDay then lastDay else t.day
    (goDate y m d t.hour t.minute t.second t.nsec t.loc).addDate 0 0 days

/-- relative/parser.go:84-100: the period. -/
def relPeriod (m : FMap) : Period :=
  if (m.get "second".toList).isSome then .second
  else if (m.get "minute".toList).isSome then .minute
  else if (m.get "hour".toList).isSome then .hour
  else if (m.get "day".toList).isSome then .day
  else if (m.get "month".toList).isSome then .month
  else if (m.get "year".toList).isSome then .year
  else .day

/-- relative/parser.go:74-125 `parseDate`; `none` is the zero time with period 0.  `big` see `F64.toInt`.
Durations are `int64` nanoseconds and wrap around; years, months and days are unbounded (the code's wrap
around 2⁶³). -/
def relParseDate (big : Int) (cfg : Cfg) (str : List Char) (now : Time) : Option (Time × Period) :=
  if !allWordsAreUnits str then none
  else
    let m := getRelativeDurations str
    if m.isEmpty then none
    else
      let year := (m.val "year".toList).toInt big
      let month := (m.val "month".toList).toInt big
      let day := (m.val "day".toList).toInt big
      let hour := wrap64 ((m.val "hour".toList).toInt big * 3600000000000)
      let minute := wrap64 ((m.val "minute".toList).toInt big * 60000000000)
      let second := wrap64 ((m.val "second".toList).toInt big * 1000000000)
      if (rxIn.matches str || cfg.dateSource == .future) && !rxAgo.matches str then
        some (((((relAddDate cfg now year month day).add hour).add minute).add second), relPeriod m)
      else
        some (((((relAddDate cfg now (-year) (-month) (-day)).add (wrap64 (-hour))).add
          (wrap64 (-minute))).add (wrap64 (-second))), relPeriod m)

/-- relative/parser.go:68-72 `parseTime`. -/
def relParseTime (s : List Char) : Option (Time × Period) :=
  parseTime (rxInAgo.deleteAll (rxRelativePattern.deleteAll s))

/-- relative/parser.go:38-51: the current time in the zone that applies. -/
def relNow (cfg : Cfg) (sysNow : Time) (tz : Option Tz) : Time :=
  let now := if cfg.currentTime.isZero then sysNow else cfg.currentTime
  match tz with
  | some z => now.inLoc (Loc.fixed z.name z.offset)
  | none => match cfg.defaultTz with
    | some l => now.inLoc l
    | none => now

/-- relative/parser.go:28-66 `Parse` after the time zone was taken off the string.  The configuration is never
nil (root parser.go:92-94). -/
def relParseAfterTz (big : Int) (cfg : Cfg) (sysNow : Time) (str : List Char) (tz : Option Tz) : DateRes :=
  let t := relParseTime str
  match relParseDate big cfg str (relNow cfg sysNow tz) with
  | none => { period := .none, time := Time.zero }
  | some (dt, period) =>
    -- a parsed time of day is never the zero time (its year is 0)
    let r : Time × Period := match t with
      | some (t, tp) =>
        if dt.isZero then (dt, period)
        else (goDate dt.year dt.month dt.day t.hour t.minute t.second t.nsec dt.loc, period.min tp)
      | none => (dt, period)
    { period := if !cfg.timeAsPeriod && r.2.isTime then .day else r.2, time := r.1 }

/-- relative/parser.go:28-66 `Parse`; `popTz` is `timezone.PopTzOffset`. -/
def relativeParse (popTz : List Char → List Char × Option Tz) (big : Int) (cfg : Cfg) (sysNow : Time)
    (str : List Char) : DateRes :=
  relParseAfterTz big cfg sysNow (popTz (stripBraces str)).1 (popTz (stripBraces str)).2

end Verif.Model
