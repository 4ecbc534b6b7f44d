import Verif.Model.Loader
import Verif.Model.Setting
/-!
# The parser object: parser.go, config.go

The state machine around the individual parsers.  The individual parsers, the translation and the check whether a
locale applies are parameters (`Parts`): everything proved here holds whatever they do.  They are pure functions: the
code's only state besides the `Parser` object are package level tables built at start-up.
-/
set_option autoImplicit false
namespace Verif.Model
open Verif.Go Verif.Data

/-- config.go:81-150 `Configuration`.  The three preferences are `uint8` and may be out of range. -/
structure PCfg where
  locales : List Name := []
  languages : List Name := []
  region : Name := []
  tryPrevious : Bool := false
  useGivenOrder : Bool := false
  defaultLanguages : List Name := []
  dateOrder : Option (Name → List Char) := none
  currentTime : Time := Time.zero
  defaultTz : Option Loc := none
  dayOfMonth : Nat := 0
  monthOfYear : Nat := 0
  dateSource : Nat := 0
  strict : Bool := false
  requiredParts : List (List Char) := []
  skipTokens : List (List Char) := []
  timeAsPeriod : Bool := false
  preserveEndOfMonth : Bool := false

inductive CfgErr where
  | dayOfMonth | monthOfYear | dateSource | requiredPart (p : List Char)
deriving DecidableEq

/-- config.go:176-202 `validate`. -/
def PCfg.validate (c : PCfg) : Except CfgErr Unit :=
  if c.dayOfMonth > 2 then .error .dayOfMonth
  else if c.monthOfYear > 2 then .error .monthOfYear
  else if c.dateSource > 2 then .error .dateSource
  else match c.requiredParts.find? fun p =>
      toLower p == ['d','a','y'] || toLower p == ['m','o','n','t','h'] || toLower p == ['y','e','a','r'] with
    | some p => .error (.requiredPart p)
    | none => .ok ()

/-- config.go:205-217 `initiate`; `Clone` (153-173) copies every field. -/
def PCfg.initiate (c : PCfg) (now : Time) : PCfg :=
  { c with
    currentTime := if c.currentTime.isZero then now.inLoc Loc.utc else c.currentTime
    skipTokens := if c.skipTokens.isEmpty then [['t']] else c.skipTokens }

/-- config.go:219-233 `toInternalConfig`, the conversions between the enumerations. -/
def DayOfMonth.ofCode : Nat → DayOfMonth
  | 0 => .current | 1 => .first | _ => .last
def MonthOfYear.ofCode : Nat → MonthOfYear
  | 0 => .current | 1 => .first | _ => .last
def DateSource.ofCode : Nat → DateSource
  | 0 => .current | 1 => .past | _ => .future

/-- config.go:219-233 `toInternalConfig`. -/
def PCfg.toInternal (c : PCfg) : Cfg where
  currentTime := c.currentTime
  defaultTz := c.defaultTz
  dayOfMonth := .ofCode c.dayOfMonth
  monthOfYear := .ofCode c.monthOfYear
  dateSource := .ofCode c.dateSource
  strict := c.strict
  requiredParts := c.requiredParts
  skipTokens := c.skipTokens
  defaultLanguages := c.defaultLanguages
  timeAsPeriod := c.timeAsPeriod
  preserveEndOfMonth := c.preserveEndOfMonth

/-- parser.go:336-356 `validateDateOrder`.  `len(do) != 3` counts bytes; a string of three bytes with another
character than ASCII letters is refused later on, so counting characters makes no difference. -/
def validateDateOrder (o : List Char) : List Char × Bool :=
  if o.length != 3 then (o, false)
  else
    let u := toUpper o
    if !(u.all fun r => r == 'D' || r == 'M' || r == 'Y') then (u, false)
    else if u.eraseDups.length != 3 then (u, false)
    else (u, true)

/-- The individual parsers, translation and language check. -/
structure Parts where
  /-- `strutil.NormalizeString` -/
  normalize : List Char → List Char
  /-- `strutil.SanitizeDate` -/
  sanitize : List Char → List Char
  /-- `strutil.StripBraces` -/
  strip : List Char → List Char
  /-- `timezone.PopTzOffset` -/
  popTz : List Char → List Char × Option Tz
  /-- `language.IsApplicable(cfg, locale, str, false)` -/
  applicable : Cfg → LocaleInfo → List Char → Bool
  /-- `language.Translate` -/
  translate : Cfg → LocaleInfo → List Char → Bool → List (List Char)
  /-- `formatted.Parse` -/
  formatted : Cfg → List Char → List (List Char) → DateRes
  /-- `timestamp.Parse` -/
  timestamp : Cfg → List Char → Bool → DateRes
  /-- `relative.Parse` -/
  relative : Cfg → List Char → DateRes
  /-- `absolute.Parse`; the zero date in case of an error. -/
  absolute : Cfg → List Char → Option Tz → DateRes
  /-- `nospace.Parse`; the zero date in case of an error. -/
  nospace : Cfg → List Char → DateRes

/-- parser.go:26-45 `Parser`: the fields `Parse` uses. -/
structure ParserSt where
  detect : Option (List Char → List Name) := none
  types : List Nat := []
  used : List LocaleInfo := []
  tracker : List Name := []

inductive ParseErr where
  | parserType (n : Nat) | config (e : CfgErr) | load (e : LoadErr) | unknownFormat
deriving DecidableEq

/-- parser.go:329-331: the same wall clock in another zone. -/
def sameClock (t : Time) (l : Loc) : Time :=
  goDate t.year t.month t.day t.hour t.minute t.second t.nsec l

/-- parser.go:315-334 `applyTimezone`.  (The name `Zone()` reports is not modelled.) -/
def applyTimezone (cfg : Cfg) (dt : DateRes) (tz : Option Tz) : DateRes :=
  if dt.isZero then dt
  else match tz, cfg.defaultTz with
    | none, none => dt
    | some z, _ => { dt with time := sameClock dt.time (Loc.fixed z.name z.offset) }
    | none, some l => { dt with time := sameClock dt.time (Loc.fixed l.name (l.off dt.time.sec)) }

/-- parser.go:170-178 `tryRelativeTime`. -/
def tryRelative (P : Parts) (cfg : Cfg) : List (List Char) → DateRes
  | [] => DateRes.zero
  | t :: r =>
    let dt := P.relative cfg t
    if !dt.isZero then dt else tryRelative P cfg r

/-- parser.go:180-188 `tryCustomFormat`. -/
def tryCustom (P : Parts) (cfg : Cfg) (formats : List (List Char)) : List (List Char) → DateRes
  | [] => DateRes.zero
  | t :: r =>
    let dt := P.formatted cfg t formats
    if !dt.isZero then dt else tryCustom P cfg formats r

/-- parser.go:310-313 `stripBracesAndTimezones`. -/
def stripTz (P : Parts) (s : List Char) : List Char × Option Tz := P.popTz (P.strip s)

/-- parser.go:190-201 `tryAbsoluteTime`. -/
def tryAbsolute (P : Parts) (cfg : Cfg) : List (List Char) → DateRes
  | [] => DateRes.zero
  | t :: r =>
    if (stripTz P t).1 != [] then
      let dt := applyTimezone cfg (P.absolute cfg (stripTz P t).1 (stripTz P t).2) (stripTz P t).2
      if !dt.isZero then dt else tryAbsolute P cfg r
    else tryAbsolute P cfg r

/-- parser.go:203-214 `tryNoSpacesTime`. -/
def tryNospace (P : Parts) (cfg : Cfg) : List (List Char) → DateRes
  | [] => DateRes.zero
  | t :: r =>
    if (stripTz P t).1 != [] then
      let dt := applyTimezone cfg (P.nospace cfg (stripTz P t).1) (stripTz P t).2
      if !dt.isZero then dt else tryNospace P cfg r
    else tryNospace P cfg r

/-- parser.go:283-293 `checkPreviousLocales`. -/
def checkPrevious (P : Parts) (cfg : Cfg) (strs : List (List Char)) : List LocaleInfo → Option LocaleInfo
  | [] => none
  | l :: r => if strs.any (P.applicable cfg l) then some l else checkPrevious P cfg strs r

/-- parser.go:295-304 `saveUsedLocale`. -/
def saveUsed (s : ParserSt) (l : LocaleInfo) : ParserSt :=
  if s.tracker.contains l.name then s
  else { s with tracker := l.name :: s.tracker, used := s.used ++ [l] }

/-- The locale data of loaded codes (loader.go:137-145). -/
def localeInfos (L : List Name) : List LocaleInfo := L.filterMap getLocaleData

/-- parser.go:247-265: the loop over the loaded locales. -/
def applicableLoop (P : Parts) (cfg : Cfg) (strs : List (List Char)) :
    List LocaleInfo → (results : List LocaleInfo) → (tracker : List Name) → List LocaleInfo × List Name
  | [], results, tracker => (results, tracker)
  | l :: r, results, tracker =>
    if tracker.contains l.name then applicableLoop P cfg strs r results tracker
    else if strs.any (P.applicable cfg l) then
      applicableLoop P cfg strs r (results ++ [l]) (l.name :: tracker)
    else applicableLoop P cfg strs r results tracker

/-- parser.go:221-226: the strings checked: normalised, and without time zone. -/
def dateStrings (P : Parts) (str : List Char) : List (List Char) :=
  let n := P.normalize str
  if (P.popTz n).1 != n then [n, (P.popTz n).1] else [n]

/-- parser.go:238-242: the languages, given or detected. -/
def languagesFor (P : Parts) (s : ParserSt) (c : PCfg) (str : List Char) : List Name :=
  match s.detect with
  | some f => if c.locales.isEmpty && c.languages.isEmpty then c.languages ++ f (P.normalize str) else c.languages
  | none => c.languages

/-- parser.go:267-277: locales of the default languages. -/
def defaultLocales (c : PCfg) : List LocaleInfo :=
  if c.defaultLanguages.isEmpty then []
  else match getLocales [] c.defaultLanguages c.region c.useGivenOrder false with
    | .ok L => localeInfos L
    | .error _ => []

/-- parser.go:228-235. -/
def previousLocale (P : Parts) (s : ParserSt) (c : PCfg) (cfg : Cfg) (str : List Char) : List LocaleInfo :=
  if c.tryPrevious then (checkPrevious P cfg (dateStrings P str) s.used).toList else []

/-- parser.go:216-281 `getApplicableLocales`. -/
def getApplicableLocales (P : Parts) (s : ParserSt) (c : PCfg) (cfg : Cfg) (str : List Char) :
    Except LoadErr (List LocaleInfo) :=
  let prev := previousLocale P s c cfg str
  match getLocales c.locales (languagesFor P s c str) c.region c.useGivenOrder false with
  | .error .notFound =>
    .ok (prev ++ (defaultLocales c).filter fun l => !(prev.map (·.name)).contains l.name)
  | .error e => .error e
  | .ok L =>
    let r := applicableLoop P cfg (dateStrings P str) (localeInfos L) prev (prev.map (·.name))
    .ok (r.1 ++ (defaultLocales c).filter fun l => !r.2.contains l.name)

/-- parser.go:117-128: the configuration for one locale. -/
def localeCfg (c : PCfg) (cfg : Cfg) (l : LocaleInfo) : Cfg :=
  { cfg with dateOrder := match c.dateOrder with
    | none => l.dateOrder
    | some f => if (validateDateOrder (f l.name)).2 then (validateDateOrder (f l.name)).1 else l.dateOrder }

/-- parser.go:134-149: one parser type; `str` is the sanitised string. -/
def tryType (P : Parts) (cfg : Cfg) (l : LocaleInfo) (str : List Char) (formats : List (List Char)) : Nat → DateRes
  | 0 => P.timestamp cfg str false
  | 1 => P.timestamp cfg str true
  | 2 => tryRelative P cfg (P.translate cfg l str false)
  | 3 => tryCustom P cfg formats (P.translate cfg l str true)
  | 4 => tryAbsolute P cfg (P.translate cfg l str false)
  | 5 => tryNospace P cfg (P.translate cfg l str false)
  | _ => DateRes.zero

/-- parser.go:134-163: the loop over the parser types. -/
def typeLoop (P : Parts) (cfg : Cfg) (l : LocaleInfo) (str : List Char) (formats : List (List Char)) :
    List Nat → Option DateRes
  | [] => none
  | t :: r =>
    let dt := tryType P cfg l str formats t
    if !dt.isZero then some { dt with locale := l.name } else typeLoop P cfg l str formats r

/-- parser.go:115-164: the loop over the locales. -/
def localeLoop (P : Parts) (c : PCfg) (cfg : Cfg) (types : List Nat) (str : List Char) (formats : List (List Char)) :
    List LocaleInfo → Option (DateRes × LocaleInfo)
  | [] => none
  | l :: r =>
    match typeLoop P (localeCfg c cfg l) l str formats types with
    | some dt => some (dt, l)
    | none => localeLoop P c cfg types str formats r

/-- parser.go:80-89. -/
def defaultTypes : List Nat := [0, 1, 2, 3, 4, 5]

/-- parser.go:97-167: `Parse` once the parser types are checked and the configuration initiated (`c`). -/
def parseWithTypes (P : Parts) (s : ParserSt) (c : PCfg) (str : List Char) (formats : List (List Char)) :
    ParserSt × Except ParseErr DateRes :=
  match c.validate with
  | .error e => (s, .error (.config e))
  | .ok () =>
    let cfg := c.toInternal
    let f := P.formatted cfg str formats
    if !f.isZero then (s, .ok f)
    else
      let str := P.sanitize str
      match getApplicableLocales P s c cfg str with
      | .error e => (s, .error (.load e))
      | .ok ls =>
        match localeLoop P c cfg s.types str formats ls with
        | some (dt, l) => (if c.tryPrevious then saveUsed s l else s, .ok dt)
        | none => (s, .error .unknownFormat)

/-- parser.go:68-168 `Parse`; `now` is what `time.Now` gives. -/
def parse (P : Parts) (now : Time) (s : ParserSt) (c : Option PCfg) (str : List Char) (formats : List (List Char)) :
    ParserSt × Except ParseErr DateRes :=
  match s.types.find? (fun t => decide (t > 5)) with
  | some t => (s, .error (.parserType t))
  | none =>
    parseWithTypes P (if s.types.isEmpty then { s with types := defaultTypes } else s)
      ((c.getD {}).initiate now) str formats

end Verif.Model
