import Verif.Model.Whole
/-!
# Jalali and Hijri dates: internal/parser/jalali, internal/parser/hijri, jalali-parser.go, hijri-parser.go

The calendar conversions come from the libraries go-jalaali and go-hijri, which are not part of /repo: they are the
parameters `JalaliLib` and `HijriLib`.
-/
set_option autoImplicit false
namespace Verif.Model
open Verif.Go

/-- `strings.ReplaceAll(s, old, new)`, for a non-empty `old`. -/
def replaceStr (old new s : List Char) : List Char := joinWith new (splitStr old s)

/-- Replace in the order given. -/
def replaceEach (l : List (List Char × List Char)) (s : List Char) : List Char := l.foldl (fun s x => replaceStr x.1 x.2 s) s

/-! ## jalali/translate.go -/

/-- translate.go:21-37 `monthNames`, 39-52 `monthNameValues`. -/
def jalaliMonths : List (List Char × List (List Char) × Int) :=
  [("Farvardin".toList, ["فروردین".toList], 1), ("Ordibehesht".toList, ["اردیبهشت".toList], 2), ("Khordad".toList, ["خرداد".toList], 3),
   ("Tir".toList, ["تیر".toList], 4), ("Mordad".toList, ["امرداد".toList, "مرداد".toList], 5),
   ("Shahrivar".toList, ["شهریور".toList, "شهريور".toList], 6), ("Mehr".toList, ["مهر".toList], 7), ("Aban".toList, ["ابان".toList], 8),
   ("Azar".toList, ["اذر".toList], 9), ("Dey".toList, ["دی".toList], 10), ("Bahman".toList, ["بهمن".toList, "بهن".toList], 11),
   ("Esfand".toList, ["اسفند".toList], 12)]

/-- translate.go:54-65 `weekdayNames`. -/
def jalaliWeekdays : List (List Char × List (List Char)) :=
  [("IekShanbe".toList, ["یکشنبه".toList]), ("DoShanbe".toList, ["دوشنبه".toList]), ("SeShanbe".toList, ["سهشنبه".toList, "سه شنبه".toList]),
   ("ChaharShanbe".toList, ["چهارشنبه".toList, "چهار شنبه".toList]), ("PanjShanbe".toList, ["پنجشنبه".toList, "پنج شنبه".toList]),
   ("Jome".toList, ["جمعه".toList]), ("Shanbe".toList, ["روز شنبه".toList, "شنبه".toList])]

/-- translate.go:77-113 `dayNumbers`. -/
def jalaliDays : List (List Char × List (List Char)) :=
  [("31".toList, ["سی و یک".toList]), ("13".toList, ["سیزده".toList]), ("29".toList, ["بیست و نه".toList]), ("28".toList, ["بیست و هشت".toList]),
   ("27".toList, ["بیست و هفت".toList]), ("26".toList, ["بیست و شش".toList]), ("25".toList, ["بیست و پنج".toList]),
   ("24".toList, ["بیست و چهار".toList]), ("23".toList, ["بیست و سه".toList, "بیست و سو".toList]),
   ("22".toList, ["بیست و دو".toList, "بیست ثانیه".toList]), ("21".toList, ["بیست و یک".toList]), ("20".toList, ["بیست".toList]),
   ("19".toList, ["نوزده".toList]), ("18".toList, ["هجده".toList]), ("17".toList, ["هفده".toList]), ("16".toList, ["شانزده".toList]),
   ("15".toList, ["پانزده".toList]), ("14".toList, ["چهارده".toList]), ("30".toList, ["سی".toList]), ("12".toList, ["دوازده".toList]),
   ("11".toList, ["یازده".toList]), ("10".toList, ["ده".toList]), ("9".toList, ["نه".toList]), ("8".toList, ["هشت".toList]),
   ("7".toList, ["هفت".toList]), ("6".toList, ["شش".toList]), ("5".toList, ["پنج".toList]), ("4".toList, ["چهار".toList]),
   ("3".toList, ["سه".toList, "سو".toList]), ("2".toList, ["دو".toList]), ("1".toList, ["یک".toList, "اول".toList]), ("0".toList, ["صفر".toList])]

/-- The words for "hour", "minute", "second", "and". -/
def hourWord : List Char := "ساعت".toList
def minuteWord : List Char := "دقیقه".toList
def secondWord : List Char := "ثانیه".toList
def andWord : List Char := "و".toList

/-- translate.go:115-122 `replaceMonths`. -/
def replaceMonths : List Char → List Char :=
  replaceEach (jalaliMonths.flatMap fun x => x.2.1.map fun p => (p, [' '] ++ x.1 ++ [' ']))
/-- translate.go:124-131 `replaceWeekdays`. -/
def replaceWeekdays : List Char → List Char :=
  replaceEach (jalaliWeekdays.flatMap fun x => x.2.map fun p => (p, [' '] ++ x.1 ++ [' ']))

/-- translate.go:17 `rxOrdinalPattern`. -/
def rxOrdinal : Rx := .alts [.lit "ام".toList, .lit "م".toList, .lit "ین".toList]
/-- translate.go:146-155 `replaceDays`. -/
def replaceDays (s : List Char) : List Char :=
  replaceEach (jalaliDays.flatMap fun x => x.2.map fun p => (p, x.1)) (rxOrdinal.deleteAll s)

/-- translate.go:12-14. -/
def rxHourPattern : Rx := .seqs [.lit hourWord, .plus .space, .rep .digit 2]
def rxMinutePattern : Rx := .seqs [.rep .digit 2, .plus .space, .lit minuteWord]
def rxSecondPattern : Rx := .seqs [.rep .digit 2, .plus .space, .lit secondWord]
/-- translate.go:16 `rxColonPattern`. -/
def rxColon : Rx := .seqs [.plus .space, .lit andWord, .plus .space]

/-- `ReplaceAllStringFunc` with `fnNumberOnly` (translate.go:134-136): every character of a match that is not a digit
becomes a space. -/
def numbersOnly (rx : Rx) (s : List Char) : List Char :=
  let r := rx.findAll s
  (r.1.flatMap fun m => m.before ++ m.text.map fun c => if c.isDigit then c else ' ') ++ r.2

/-- translate.go:133-144 `replaceTime`. -/
def replaceTime (s : List Char) : List Char :=
  deleteStr hourWord (replaceAllTmpl rxColon [.lit [':']] (numbersOnly rxSecondPattern (numbersOnly rxMinutePattern (numbersOnly rxHourPattern s))))

/-- translate.go:157-162 `removeWeekdayTranslations`. -/
def removeWeekdays : List Char → List Char := replaceEach (jalaliWeekdays.map fun x => (x.1, [' ']))

/-- jalali/parser.go:19-31: the text given to the parser. -/
def jalaliText (U : Uni) (s : List Char) : List Char :=
  let s := normalizeDigits U.isDigit (U.normalizeString s)
  stripBraces (sanitizeDate U (removeWeekdays (replaceTime (replaceDays (replaceWeekdays (replaceMonths s))))))

/-! ## jalali/parser.go -/

/-- github.com/jalaali/go-jalaali: `From`, `IsLeapYear`, `MonthLength`, `ToGregorian`; `none` is an error. -/
structure JalaliLib where
  fromTime : Time → Int × Int × Int
  isLeap : Int → Option Bool
  monthLength : Int → Int → Option Int
  toGregorian : Int → Int → Int → Option (Int × Int × Int)

/-- parser.go:178-187: the loop of `getLeapYear`; `none` when the given number of turns is not enough. -/
def jalaliLeapLoop (lib : JalaliLib) (orig step : Int) : Nat → Int → Option Int
  | 0, _ => none
  | n + 1, year =>
    match lib.isLeap (year + step) with
    | some true => some (year + step)
    | some false => jalaliLeapLoop lib orig step n (year + step)
    | none => some orig

/-- parser.go:171-188 `getLeapYear`.  The loop has no bound; the library knows about 3250 years, and refuses the others. -/
def jalaliLeapYear (lib : JalaliLib) (year : Int) (toFuture : Bool) : Except Fault Int :=
  match jalaliLeapLoop lib year (if toFuture then 1 else -1) 10000 year with
  | some y => .ok y
  | none => .error .diverge

/-- parser.go:190-211 `getCorrectLeapYear` (the same in hijri/parser.go:180-201), for any way to find the next leap year. -/
def correctLeapYear (leap : Int → Bool → Except Fault Int) (src : DateSource) (year : Int) : Except Fault Int :=
  match src with
  | .future => leap year true
  | .past => leap year false
  | .current => do
    let next ← leap year true
    let prev ← leap year false
    pure (if next - year < year - prev then next else prev)

/-- parser.go:132-159 `createDateTime`. -/
def jalaliCreate (lib : JalaliLib) (cfg : Cfg) (Y M D H m s ns : Int) (l : Loc) : Except Fault Time :=
  match lib.isLeap Y with
  | none => .error .error
  | some leap => do
    let Y ← if D = 30 ∧ M = 12 ∧ !leap then correctLeapYear (jalaliLeapYear lib) cfg.dateSource Y else pure Y
    let D := match lib.monthLength Y M with
      | some last => if D > last then last else D
      | none => D
    match lib.toGregorian Y M D with
    | none => .error .error
    | some g => .ok (goDate g.1 g.2.1 g.2.2 H m s ns l)

/-- parser.go:89-130 `getDatePartValue` (and hijri/parser.go:93-127), for a way to read two digit years and month names.
`unicode.IsDigit` is `isDigit`; tokens of digits are ASCII (`strconv.Atoi` fails and gives 0 for others). -/
def calPartValue (isDigit : Char → Bool) (two : Int → Int) (month : List Char → Option Int) (c : Comp) (token : List Char) (d : Dir) :
    Option Int :=
  let num := token.all isDigit
  let val := if token.all Char.isDigit then natOfDigits token else 0
  let bytes := byteLen token
  match c with
  | .year =>
    if bytes = 4 ∧ num then some val
    else if bytes = 2 ∧ num then some (two val)
    else none
  | .month =>
    match (if d = .mJanuary then month token else none) with
    | some v => some v
    | none => if bytes ≤ 2 ∧ num ∧ 1 ≤ val ∧ val ≤ 12 then some val else none
  | .day => if bytes ≤ 2 ∧ num ∧ 1 ≤ val ∧ val ≤ 30 then some val else none
  | .weekday => none

/-- parser.go:213-219 `handleTwoDigitYear`. -/
def jalaliTwoDigits (y : Int) : Int := if y > 60 then y + 1300 else y + 1400

/-- translate.go:39-52 `monthNameValues`. -/
def jalaliMonthValue (token : List Char) : Option Int := (jalaliMonths.find? (·.1 == token)).map (·.2.2)

/-- parser.go:35-40: the functions of the parser; 62-87 `getDateTimeParams`. -/
def jalaliFns (U : Uni) (lib : JalaliLib) : Fns where
  nowParts := lib.fromTime
  partValue := calPartValue U.isDigit jalaliTwoDigits jalaliMonthValue
  create := jalaliCreate lib

/-- parser.go:53-57 (hijri/parser.go:57-61): apply the zone of the text. -/
def applyPopped (dt : DateRes) (tz : Option Tz) : DateRes :=
  match tz with
  | some z =>
    let t := dt.time
    if dt.isZero then dt
    else { dt with time := goDate t.year t.month t.day t.hour t.minute t.second t.nsec (Loc.fixed z.name z.offset) }
  | none => dt

/-- The common end of both parsers: jalali/parser.go:32-60, hijri/parser.go:36-64. -/
def calParse (fns : Fns) (table : List TzEntry) (cfg : Cfg) (sysNow : Time) (monthFirst : Nat → Bool) (text : List Char) :
    Except Fault DateRes :=
  let p := popTzOffset table text
  let e : AEnv := { fns := fns, cfg := cfg, sysNow := sysNow, monthFirst := monthFirst }
  match absInit e p.1 with
  | .error f => .error f
  | .ok s => match absParse e s p.2 with
    | .error f => .error f
    | .ok dt => .ok (applyPopped dt p.2)

/-- jalali/parser.go:17-60 `Parse`. -/
def jalaliParse (U : Uni) (lib : JalaliLib) (table : List TzEntry) (cfg : Cfg) (sysNow : Time) (monthFirst : Nat → Bool) (str : List Char) :
    Except Fault DateRes := calParse (jalaliFns U lib) table cfg sysNow monthFirst (jalaliText U str)

/-! ## hijri/parser.go -/

/-- github.com/hablullah/go-hijri: `CreateUmmAlQuraDate` and `UmmAlQuraDate.ToGregorian` (its year, month and day). -/
structure HijriLib where
  fromDate : Int → Int → Int → Int × Int × Int
  fromTime : Time → Int × Int × Int
  toGregorian : Int → Int → Int → Int × Int × Int

/-- hijri/parser.go:159-164 `isHijriLeapYear`. -/
def isHijriLeap (lib : HijriLib) (year : Int) : Bool :=
  let g := lib.toGregorian year 12 30
  (lib.fromDate g.1 g.2.1 g.2.2).2.2 == 30

/-- hijri/parser.go:172-177: the loop of `getHijriLeapYear`. -/
def hijriLeapLoop (lib : HijriLib) (step : Int) : Nat → Int → Option Int
  | 0, _ => none
  | n + 1, year => if isHijriLeap lib (year + step) then some (year + step) else hijriLeapLoop lib step n (year + step)

/-- hijri/parser.go:166-178 `getHijriLeapYear`; the loop has no bound, here it has a large one. -/
def hijriLeapYear (lib : HijriLib) (year : Int) (toFuture : Bool) : Except Fault Int :=
  match hijriLeapLoop lib (if toFuture then 1 else -1) 10000 year with
  | some y => .ok y
  | none => .error .diverge

/-- hijri/parser.go:203-212 `getLastDayOfHijriMonth`. -/
def lastDayOfHijriMonth (lib : HijriLib) (year month : Int) : Int :=
  if month = 12 ∧ isHijriLeap lib year then 30
  else if month.tmod 2 = 0 then 29
  else 30

/-- hijri/parser.go:129-147 `createDateTime`. -/
def hijriCreate (lib : HijriLib) (cfg : Cfg) (Y M D H m s ns : Int) (l : Loc) : Except Fault Time := do
  let Y ← if D = 30 ∧ M = 12 ∧ !isHijriLeap lib Y then correctLeapYear (hijriLeapYear lib) cfg.dateSource Y else pure Y
  let last := lastDayOfHijriMonth lib Y M
  let D := if D > last then last else D
  let g := lib.toGregorian Y M D
  pure (goDate g.1 g.2.1 g.2.2 H m s ns l)

/-- hijri/parser.go:214-220 `handleTwoDigitYear`. -/
def hijriTwoDigits (y : Int) : Int := if y ≥ 90 then y + 1300 else y + 1400

/-- hijri/parser.go:40-45, 66-91. -/
def hijriFns (U : Uni) (lib : HijriLib) : Fns where
  nowParts := lib.fromTime
  partValue := calPartValue U.isDigit hijriTwoDigits (fun _ => none)
  create := hijriCreate lib

/-- hijri/parser.go:18-21, 29-31; Go's random map iteration may visit "pm" first. -/
def replaceMeridians (amFirst : Bool) : List Char → List Char :=
  let am := ("صباحا".toList, "am".toList)
  let pm := ("مساء".toList, "pm".toList)
  replaceEach (if amFirst then [am, pm] else [pm, am])

/-- hijri/parser.go:25-35. -/
def hijriText (U : Uni) (amFirst : Bool) (s : List Char) : List Char :=
  stripBraces (sanitizeDate U (replaceMeridians amFirst (normalizeDigits U.isDigit (U.normalizeString s))))

/-- hijri/parser.go:23-64 `Parse`. -/
def hijriParse (U : Uni) (lib : HijriLib) (table : List TzEntry) (amFirst : Bool) (cfg : Cfg) (sysNow : Time) (monthFirst : Nat → Bool)
    (str : List Char) : Except Fault DateRes := calParse (hijriFns U lib) table cfg sysNow monthFirst (hijriText U amFirst str)

/-! ## jalali-parser.go, hijri-parser.go -/

/-- jalali-parser.go:14-38 (and hijri-parser.go:14-38): the configuration given to the parser, if it is valid. -/
def calendarCfg (c : Option PCfg) (now : Time) : Option Cfg :=
  let c := c.getD {}
  let order := match c.dateOrder with
    | none => "DMY".toList
    | some f => if (validateDateOrder (f [])).2 then (validateDateOrder (f [])).1 else "DMY".toList
  let c := c.initiate now
  match c.validate with
  | .ok () => some { c.toInternal with dateOrder := order }
  | .error _ => none

/-- jalali-parser.go:12-39 `ParseJalali`. -/
def Env.parseJalali (E : Env) (lib : JalaliLib) (c : Option PCfg) (str : List Char) : Except Fault DateRes :=
  match calendarCfg c E.now with
  | none => .error .error
  | some cfg => jalaliParse E.uni lib E.table cfg E.now E.monthFirst str

/-- hijri-parser.go:12-39 `ParseHijri`; `amFirst` is the order of a map iteration. -/
def Env.parseHijri (E : Env) (lib : HijriLib) (amFirst : Bool) (c : Option PCfg) (str : List Char) : Except Fault DateRes :=
  match calendarCfg c E.now with
  | none => .error .error
  | some cfg => hijriParse E.uni lib E.table amFirst cfg E.now E.monthFirst str

end Verif.Model
