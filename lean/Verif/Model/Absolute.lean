import Verif.Model.Common
import Verif.Model.Tokenizer
import Verif.Model.Strutil
/-!
# internal/parser/absolute

The parser is shared by the Gregorian, Jalali and Hijri calendars through three function fields
(`FnGetDateTimeParams`, `FnCreateDateTime`, `FnGetDatePartValue`), modelled by `Fns`.
-/
set_option autoImplicit false
namespace Verif.Model
open Verif.Go

/-- The component names "day", "month", "year", "weekday" used as map keys in
absolute/parser.go:24-27, 118-131. -/
inductive Comp where
  | day | month | year | weekday
deriving DecidableEq, Repr

/-- The names as strings (used for `RequiredParts`). -/
def Comp.name : Comp → List Char
  | .day => "day".toList | .month => "month".toList | .year => "year".toList
  | .weekday => "weekday".toList

/-- The layout directives of absolute/parser.go:24-27 and 118-131. -/
inductive Dir where
  | d2 | m1 | y2006 | y06 | wMonday | wMon | mJanuary | mJan
deriving DecidableEq, Repr

/-- The layout text of a directive. -/
def Dir.layout : Dir → List Char
  | .d2 => "2".toList | .m1 => "1".toList | .y2006 => "2006".toList | .y06 => "06".toList
  | .wMonday => "Monday".toList | .wMon => "Mon".toList
  | .mJanuary => "January".toList | .mJan => "Jan".toList

/-- absolute/parser.go:32-35 `FilteredToken`. -/
structure FTok where
  tok : Tok
  origIdx : Nat
deriving DecidableEq, Repr

/-- `ComponentValues map[string]int` (absolute/parser.go:52); the keys are the four components. -/
structure Vals where
  day : Option Int := none
  month : Option Int := none
  year : Option Int := none
  weekday : Option Int := none
deriving DecidableEq, Repr

def Vals.get (v : Vals) : Comp → Option Int
  | .day => v.day | .month => v.month | .year => v.year | .weekday => v.weekday
def Vals.set (v : Vals) (c : Comp) (x : Int) : Vals :=
  match c with
  | .day => { v with day := some x } | .month => { v with month := some x }
  | .year => { v with year := some x } | .weekday => { v with weekday := some x }
/-- Go map read: missing keys give 0. -/
def Vals.get0 (v : Vals) (c : Comp) : Int := (v.get c).getD 0

/-- `ComponentTokens map[string]Token` (absolute/parser.go:53); keys: the components and "time". -/
structure CToks where
  day : Option Tok := none
  month : Option Tok := none
  year : Option Tok := none
  weekday : Option Tok := none
  time : Option Tok := none
deriving DecidableEq, Repr

def CToks.get (v : CToks) : Comp → Option Tok
  | .day => v.day | .month => v.month | .year => v.year | .weekday => v.weekday
def CToks.set (v : CToks) (c : Comp) (x : Tok) : CToks :=
  match c with
  | .day => { v with day := some x } | .month => { v with month := some x }
  | .year => { v with year := some x } | .weekday => { v with weekday := some x }

/-- The calendar dependent functions, absolute/parser.go:45-47.  `nowParts` gives year, month, day
of the current time in the calendar; all three implementations of `FnGetDateTimeParams` use them
for components that are missing or 0. -/
structure Fns where
  nowParts : Time → Int × Int × Int
  partValue : Comp → List Char → Dir → Option Int
  create : Cfg → (Y M D H m s ns : Int) → Loc → Except Fault Time

/-- What is fixed during one call of `Init`. `monthFirst i` says whether Go's random map iteration
in `parseLetterToken` (absolute/parser.go:402) visits "month" before "weekday" for the token with
index `i`. -/
structure AEnv where
  fns : Fns
  cfg : Cfg
  sysNow : Time
  monthFirst : Nat → Bool

/-- absolute/parser.go:89-92 `p.Now`. -/
def AEnv.now (e : AEnv) : Time := if e.cfg.currentTime.isZero then e.sysNow else e.cfg.currentTime

/-- The mutable state of `Parser` during `Init` (absolute/parser.go:42-61). -/
structure ASt where
  vals : Vals := {}
  ctoks : CToks := {}
  autoOrder : List Comp := []
  unset : List Tok := []
  skippedComp : Option Comp := none
  skippedIdx : List Nat := []
deriving DecidableEq, Repr

/-- absolute/parser.go:20 `rxHourMinute`: `^([0-9]|0[0-9]|1[0-9]|2[0-3]):[0-5][0-9]$`. -/
def isHourMinute : List Char → Bool
  | [h, ':', a, b] => h.isDigit && ('0' ≤ a && a ≤ '5') && b.isDigit
  | [g, h, ':', a, b] =>
    (((g == '0' || g == '1') && h.isDigit) || (g == '2' && ('0' ≤ h && h ≤ '3'))) &&
    ('0' ≤ a && a ≤ '5') && b.isDigit
  | _ => false

/-- absolute/parser.go:21 `rxMicrosecond.FindString`: the first run of digits, at most six. -/
def findMicro (s : List Char) : List Char :=
  ((s.dropWhile (fun c => !c.isDigit)).takeWhile Char.isDigit).take 6

/-- absolute/parser.go:22 `rxMeridian.FindString`: the first "am" or "pm" in any letter case. -/
def findMeridian : List Char → List Char
  | a :: b :: r =>
    if (toLowerC a == 'a' || toLowerC a == 'p') && toLowerC b == 'm' then [a, b]
    else findMeridian (b :: r)
  | _ => []

/-- absolute/parser.go:103 `SkippedTokens`. -/
def skippedTokens : List (List Char) := ["t".toList, "year".toList, "hour".toList, "minute".toList]

/-- absolute/parser.go:115-130 `Components` and `NumberDirectives`. -/
def numberDirectives (dateOrder : List Char) : List (Comp × List Dir) :=
  (toLower dateOrder).filterMap fun c =>
    if c == 'd' then some (.day, [.d2])
    else if c == 'm' then some (.month, [.m1])
    else if c == 'y' then some (.year, [.y2006, .y06])
    else none

/-- absolute/parser.go:24-27 `alphaDirectives` in one of its two iteration orders. -/
def alphaDirectives (monthFirst : Bool) : List (Comp × List Dir) :=
  if monthFirst then [(.month, [.mJanuary, .mJan]), (.weekday, [.wMonday, .wMon])]
  else [(.weekday, [.wMonday, .wMon]), (.month, [.mJanuary, .mJan])]

/-- absolute/parser.go:343-353 `setAndReturn`: the state with the token recorded. -/
def setAndReturn (s : ASt) (c : Comp) (t : Tok) (skipDateOrder : Bool) : ASt :=
  { s with autoOrder := if skipDateOrder then s.autoOrder else s.autoOrder ++ [c],
           ctoks := s.ctoks.set c t }

/-- absolute/parser.go:374-389, the directive loop of `parseDigitToken` for one component. -/
def digitDirLoop (e : AEnv) (s : ASt) (c : Comp) (text : List Char) :
    List Dir → Option (ASt × List (Comp × Int))
  | [] => none
  | d :: ds =>
    match e.fns.partValue c text d with
    | none => digitDirLoop e s c text ds
    | some v =>
      if s.vals.get0 c = 0 then some (setAndReturn s c ⟨text, .digit⟩ false, [(c, v)])
      else match s.ctoks.get c with
        | some prev =>
          if prev.typ = .digit then
            match e.fns.partValue c prev.text d with
            | none =>
              some (setAndReturn { s with unset := s.unset ++ [prev] } c ⟨text, .digit⟩ false, [(c, v)])
            | some _ => digitDirLoop e s c text ds
          else digitDirLoop e s c text ds
        | none => digitDirLoop e s c text ds

/-- absolute/parser.go:355-393 `parseDigitToken`; `none` is the error. -/
def parseDigitToken (e : AEnv) (s : ASt) (text : List Char) :
    List (Comp × List Dir) → Option (ASt × List (Comp × Int))
  | [] => none
  | (c, ds) :: r =>
    if s.skippedComp = some c then parseDigitToken e s text r
    else match digitDirLoop e s c text ds with
      | some x => some x
      | none => parseDigitToken e s text r

/-- Replace the first `month` in the order by `day` (absolute/parser.go:421-433); `none` if absent. -/
def replaceMonthByDay : List Comp → Option (List Comp)
  | [] => none
  | .month :: r => some (.day :: r)
  | c :: r => (replaceMonthByDay r).map (c :: ·)

/-- absolute/parser.go:412-441, the directive loop of `parseLetterToken` for one component. -/
def letterDirLoop (e : AEnv) (s : ASt) (c : Comp) (text : List Char) :
    List Dir → Option (ASt × List (Comp × Int))
  | [] => none
  | d :: ds =>
    match e.fns.partValue c text d with
    | none => letterDirLoop e s c text ds
    | some v =>
      if s.vals.get0 c = 0 then some (setAndReturn s c ⟨text, .letter⟩ true, [(c, v)])
      else if c = .month then
        match replaceMonthByDay s.autoOrder with
        | none => letterDirLoop e s c text ds
        | some ao =>
          -- line 434: a missing "month" token would copy the zero `Token`
          let monthTok := (s.ctoks.get .month).getD ⟨[], .null⟩
          some ({ s with autoOrder := ao,
                         ctoks := (s.ctoks.set .day monthTok).set .month ⟨text, .letter⟩ },
                [(.month, v), (.day, s.vals.get0 .month)])
      else letterDirLoop e s c text ds

/-- absolute/parser.go:395-445 `parseLetterToken`; `none` is the error. -/
def parseLetterToken (e : AEnv) (s : ASt) (text : List Char) :
    List (Comp × List Dir) → Option (ASt × List (Comp × Int))
  | [] => none
  | (c, ds) :: r =>
    if s.skippedComp = some c then parseLetterToken e s text r
    else match letterDirLoop e s c text ds with
      | some x => some x
      | none => parseLetterToken e s text r

/-- `p.getToken(i)` text (absolute/parser.go:329-334); missing tokens have empty text. -/
def tokTextAt (toks : List Tok) (i : Nat) : List Char := ((toks[i]?).map (·.text)).getD []

/-- absolute/parser.go:147-174: hours and minutes separated by a period, e.g. 13.20; the joined text. -/
def joinPeriod (toks : List Tok) (filtered : List FTok) (index : Nat) (ft : FTok) : Option (List Char) :=
  let isBeforePeriod := tokTextAt toks (ft.origIdx + 1) == ['.']
  let isAfterPeriod := if ft.origIdx = 0 then false else tokTextAt toks (ft.origIdx - 1) == ['.']
  match filtered[index + 1]? with
  | some next =>
    if isBeforePeriod && !isAfterPeriod then
      let nextIsLast := index + 1 == filtered.length - 1
      let notPeriod := tokTextAt toks (next.origIdx + 1) != ['.']
      if nextIsLast || notPeriod then
        let newText := ft.tok.text ++ [':'] ++ next.tok.text
        if isHourMinute newText then some newText else none
      else none
    else none
  | none => none

/-- absolute/parser.go:176-193: microseconds.  When no token has the text (a joined one), the index is
−2 and no token is found. -/
def captureMicro (toks : List Tok) (filtered : List FTok) (index : Nat) (text : List Char) : List Char :=
  match filtered[index + 1]? with
  | some next =>
    let after := match toks.findIdx? (fun t => t.text == text && t.typ == .digit) with
      | some i => tokTextAt toks (i + 1)
      | none => []
    if text.contains ':' && after.contains '.' then findMicro next.tok.text else []
  | none => []

/-- absolute/parser.go:199-203: the meridian. -/
def captureMeridian (filtered : List FTok) (i : Nat) : List Char :=
  match filtered[i]? with
  | some m => findMeridian m.tok.text
  | none => []

/-- absolute/parser.go:143-227: the attempt to read a time starting at the token; the result is the
text for the "time" component and the indexes to skip, or `none` with the (possibly enlarged) skip
list when the token is not a time. -/
def captureTime (toks : List Tok) (filtered : List FTok) (index : Nat) (ft : FTok) (skipped : List Nat) :
    Option (List Char) × List Nat :=
  let join := joinPeriod toks filtered index ft
  let text := join.getD ft.tok.text
  let skipped := if join.isSome then (index + 1) :: skipped else skipped
  let meridianIndex := if join.isSome then index + 2 else index + 1
  let micro := captureMicro toks filtered index text
  let meridianIndex := if micro.isEmpty then meridianIndex else meridianIndex + 1
  let meridian := captureMeridian filtered meridianIndex
  -- lines 205-226
  if text.contains ':' || !meridian.isEmpty || !micro.isEmpty then
    if !meridian.isEmpty && micro.isEmpty then
      (some (text ++ [' '] ++ meridian), meridianIndex :: skipped)
    else if !micro.isEmpty && meridian.isEmpty then
      (some (text ++ ['.'] ++ micro), (index + 1) :: skipped)
    else if !meridian.isEmpty && !micro.isEmpty then
      (some (text ++ ['.'] ++ micro ++ [' '] ++ meridian), meridianIndex :: (index + 1) :: skipped)
    else (some text, skipped)
  else (none, skipped)

/-- absolute/parser.go:242-247: store the values found for one token.  `len` is the byte length of
the token's text (ASCII, so the number of characters). -/
def saveResults (s : ASt) (len : Nat) : List (Comp × Int) → ASt
  | [] => s
  | (c, v) :: r =>
    let s := if len = 4 ∧ c = .year then { s with skippedComp := some .year } else s
    saveResults { s with vals := s.vals.set c v } len r

/-- absolute/parser.go:132-248, one iteration of the loop over the filtered tokens.
`p.ParsedTime.IsZero()` (line 144) is always true here: `ParsedTime` is only set in `Parse`. -/
def initStep (e : AEnv) (toks : List Tok) (filtered : List FTok) (index : Nat) (ft : FTok) (s : ASt) :
    Except Fault ASt :=
  if s.skippedIdx.contains index then .ok s
  else if skippedTokens.contains ft.tok.text then .ok s
  else
    match captureTime toks filtered index ft s.skippedIdx with
    | (some strTime, sk) =>
      .ok { s with skippedIdx := sk, ctoks := { s.ctoks with time := some ⟨strTime, .digit⟩ } }
    | (none, sk) =>
      let s := { s with skippedIdx := sk }
      let r := if ft.tok.typ = .digit then
          parseDigitToken e s ft.tok.text (numberDirectives e.cfg.dateOrder)
        else if ft.tok.typ = .letter then
          parseLetterToken e s ft.tok.text (alphaDirectives (e.monthFirst index))
        else some (s, [])
      match r with
      | none => .error .error
      | some (s', results) => .ok (saveResults s' ft.tok.text.length results)

/-- absolute/parser.go:132-248, the loop. -/
def initLoop (e : AEnv) (toks : List Tok) (filtered : List FTok) :
    Nat → List FTok → ASt → Except Fault ASt
  | _, [], s => .ok s
  | i, ft :: r, s =>
    match initStep e toks filtered i ft s with
    | .error f => .error f
    | .ok s' => initLoop e toks filtered (i + 1) r s'

/-- absolute/parser.go:251-261, fallback for one missing component: the last unset digit token. -/
def fallback1 (s : ASt) (c : Comp) : ASt :=
  if (s.vals.get c).isSome then s
  else s.unset.foldl (fun s ut =>
    if ut.typ = .digit then
      { s with ctoks := s.ctoks.set c ut,
               vals := s.vals.set c (if ut.text.all Char.isDigit then natOfDigits ut.text else 0) }
    else s) s

/-- absolute/parser.go:251-261. -/
def fallbacks (s : ASt) : ASt := fallback1 (fallback1 (fallback1 s .day) .month) .year

/-- absolute/parser.go:106-113 `FilteredTokens`: digit and letter tokens with their index.
(`token.Type <= Letter`; the tokenizer never produces the type `Null`.) -/
def filterToks : Nat → List Tok → List FTok
  | _, [] => []
  | i, t :: r =>
    if t.typ = .other then filterToks (i + 1) r else ⟨t, i⟩ :: filterToks (i + 1) r

/-- absolute/parser.go:94-97: the tokens with trimmed texts. -/
def trimToks (l : List Tok) : List Tok := l.map fun t => { t with text := trimSpace t.text }

/-- absolute/parser.go:63-264 `Init`. -/
def absInit (e : AEnv) (str : List Char) : Except Fault ASt :=
  let str := sanitizeSpaces str
  if str.isEmpty then .error .error
  else
    let toks := trimToks (tokenize str)
    let filtered := filterToks 0 toks
    match initLoop e toks filtered 0 filtered {} with
    | .error f => .error f
    | .ok s => .ok (fallbacks s)

/-- absolute/parser.go:599-620 `getCorrectLeapYear`. -/
def getCorrectLeapYear (src : DateSource) (year : Int) : Int :=
  match src with
  | .future => getLeapYear year true
  | .past => getLeapYear year false
  | .current =>
    let next := getLeapYear year true
    let prev := getLeapYear year false
    if next - year < year - prev then next else prev

/-- absolute/parser.go:29 `weekdayNames`. -/
def weekdayNames : List (List Char) :=
  ["sun".toList, "mon".toList, "tue".toList, "wed".toList, "thu".toList, "fri".toList, "sat".toList]

/-- absolute/parser.go:470-473 (step +1) and 483-489 (step −1, with wrap to 6): number of steps until
the weekday name at the index is `day`; `none` if it is not reached in the given number of steps. -/
def weekdaySteps (forward : Bool) (day : List Char) : Nat → Nat → Option Nat
  | 0, _ => none
  | n + 1, idx =>
    if weekdayNames[idx]? = some day then some 0
    else
      let idx' := if forward then (idx + 1) % 7 else (if idx = 0 then 6 else idx - 1)
      (weekdaySteps forward day n idx').map (· + 1)

/-- absolute/parser.go:461-495: the shift in days for a lone weekday.  `diverge` when the loop would
not stop, `panic` when the token is shorter than three bytes. -/
def weekdayShift (src : DateSource) (dayIndex : Nat) (tokText : List Char) : Except Fault Int :=
  if tokText.length < 3 then .error .panic
  else
    let day := toLower (tokText.take 3)
    match src with
    | .future =>
      if weekdayNames[dayIndex]? = some day then .ok 7
      else match weekdaySteps true day 8 dayIndex with
        | some n => .ok n
        | none => .error .diverge
    | .past =>
      if weekdayNames[dayIndex]? = some day then .ok (-7)
      else match weekdaySteps false day 8 dayIndex with
        | some n => .ok (-(n : Int))
        | none => .error .diverge
    | .current =>
      if weekdayNames[dayIndex]? = some day then .ok 0
      else match weekdaySteps false day 8 dayIndex with
        | some n => .ok (-(n : Int))
        | none => .error .diverge

/-- absolute/parser.go:461-495, the block for lone weekdays. -/
def frameWeekday (cfg : Cfg) (s : ASt) (t : Time) : Except Fault Time :=
  match s.ctoks.weekday with
  | some tw =>
    if s.ctoks.year.isNone && s.ctoks.month.isNone && s.ctoks.day.isNone then
      match weekdayShift cfg.dateSource t.weekday.toNat tw.text with
      | .ok k => .ok (t.addDate 0 0 k)
      | .error f => .error f
    else .ok t
  | none => .ok t

/-- absolute/parser.go:497-517, the block for a month without year. -/
def frameMonth (cfg : Cfg) (now : Time) (s : ASt) (t : Time) : Time :=
  if s.vals.month.isSome && s.vals.year.isNone then
    let year :=
      if now.before t then (if cfg.dateSource = .past then t.year - 1 else t.year)
      else (if cfg.dateSource = .future then t.year + 1 else t.year)
    let year :=
      if t.day = 29 ∧ t.month = 2 ∧ !isLeapYear year then getCorrectLeapYear cfg.dateSource year
      else year
    goDate year t.month t.day t.hour t.minute t.second t.nsec t.loc
  else t

/-- absolute/parser.go:519-529, the block for two digit years. -/
def frameYear2 (cfg : Cfg) (now : Time) (s : ASt) (t : Time) : Time :=
  match s.ctoks.year with
  | some ty =>
    if ty.text.length = 2 then
      if now.before t then
        (if cfg.dateSource = .past then t.addDate (-100) 0 0 else t)
      else
        (if cfg.dateSource = .future then t.addDate 100 0 0 else t)
    else t
  | none => t

/-- absolute/parser.go:533-538: the offset subtracted before comparing. -/
def frameOffset (cfg : Cfg) (tz : Option Tz) (t : Time) : Int :=
  match tz with
  | some z => z.offset
  | none => match cfg.defaultTz with
    | some l => l.off t.sec
    | none => 0

/-- absolute/parser.go:531-546, the block for a lone time of day. -/
def frameTime (cfg : Cfg) (now : Time) (s : ASt) (tz : Option Tz) (t : Time) : Time :=
  if s.ctoks.time.isSome && s.ctoks.year.isNone && s.ctoks.month.isNone && s.ctoks.day.isNone &&
      s.ctoks.weekday.isNone then
    let tmp := t.add (-(frameOffset cfg tz t * 1000000000))
    let t := if cfg.dateSource = .past ∧ now.before tmp then t.addDate 0 0 (-1) else t
    let t := if cfg.dateSource = .future ∧ now.after tmp then t.addDate 0 0 1 else t
    t
  else t

/-- absolute/parser.go:447-549 `correctForTimeFrame`. -/
def correctForTimeFrame (cfg : Cfg) (now : Time) (s : ASt) (tz : Option Tz) (t : Time) :
    Except Fault Time :=
  match frameWeekday cfg s t with
  | .error f => .error f
  | .ok t => .ok (frameTime cfg now s tz (frameYear2 cfg now s (frameMonth cfg now s t)))

/-- absolute/parser.go:551-561 `correctForDay`. -/
def correctForDay (e : AEnv) (s : ASt) (t : Time) : Time :=
  if s.ctoks.day.isSome || s.ctoks.time.isSome || s.ctoks.weekday.isSome then t
  else applyDayFromConfig e.cfg e.sysNow t (some e.now.day)

/-- absolute/parser.go:563-580 `correctForMonth`. -/
def correctForMonth (e : AEnv) (s : ASt) (t : Time) : Time :=
  if s.ctoks.month.isSome then t
  else if s.ctoks.weekday.isSome && s.ctoks.year.isNone && s.ctoks.month.isNone && s.ctoks.day.isNone
  then t
  else applyMonthFromConfig e.cfg e.sysNow t (some e.now.month)

/-- absolute/parser.go:582-597 `getPeriod`. -/
def getPeriod (s : ASt) : Period :=
  if s.vals.day.isSome then .day
  else if s.vals.month.isSome then .month
  else if s.vals.year.isSome then .year
  else .day

/-- absolute/parser.go:268-273: the date parts without a value. -/
def missingParts (s : ASt) : List Comp :=
  [Comp.day, Comp.month, Comp.year].filter fun c => (s.vals.get c).isNone

/-- A component, or the current one if it is missing or 0: absolute/root.go:28-50 (and
jalali/parser.go:62-87, hijri/parser.go `getDateTimeParams`). -/
def orNow (v : Option Int) (now : Int) : Int :=
  match v with
  | some x => if x = 0 then now else x
  | none => now

/-- absolute/parser.go:266-327 `Parse`. -/
def absParse (e : AEnv) (s : ASt) (tz : Option Tz) : Except Fault DateRes :=
  if !checkStrictParsing e.cfg ((missingParts s).map Comp.name) then .error .error
  else
    let ptime : Except Fault (Option (Time × Period)) := match s.ctoks.time with
      | none => .ok none
      | some tk => match parseTime tk.text with
        | none => .error .error
        | some r => .ok (some r)
    match ptime with
    | .error f => .error f
    | .ok pt =>
      let np := e.fns.nowParts e.now
      let Y := orNow s.vals.year np.1
      let M := orNow s.vals.month np.2.1
      let D := orNow s.vals.day np.2.2
      -- lines 292-297; a parsed time is never the zero time (its year is 0)
      let clock : Int × Int × Int × Int := match pt with
        | some (t, _) => (t.hour, t.minute, t.second, t.nsec)
        | none => (0, 0, 0, 0)
      match e.fns.create e.cfg Y M D clock.1 clock.2.1 clock.2.2.1 clock.2.2.2 e.now.loc with
      | .error f => .error f
      | .ok dt =>
        match correctForTimeFrame e.cfg e.now s tz dt with
        | .error f => .error f
        | .ok dt =>
          let dt := correctForDay e s (correctForMonth e s dt)
          let period := match pt with
            | some (_, p) => if e.cfg.timeAsPeriod then (getPeriod s).min p else getPeriod s
            | none => getPeriod s
          .ok { period := period, time := dt }

/-- absolute/root.go:52-68 `createDateTime`. -/
def gregCreate (cfg : Cfg) (Y M D H m s ns : Int) (l : Loc) : Except Fault Time :=
  let Y := if D = 29 ∧ M = 2 ∧ !isLeapYear Y then getCorrectLeapYear cfg.dateSource Y else Y
  let last := getLastDayOfMonth Y M
  let D := if D > last then last else D
  .ok (goDate Y M D H m s ns l)

/-- absolute/root.go:70-86 `getDatePartValue`.  Tokens are ASCII, so ASCII lower casing is exact. -/
def gregPartValue (c : Comp) (token : List Char) (d : Dir) : Option Int :=
  match timeParse d.layout (toLower token) with
  | none => none
  | some t =>
    if t.isZero then none
    else some (match c with
      | .day => t.day | .weekday => t.weekday | .month => t.month | .year => t.year)

/-- absolute/root.go:13-26, 28-50: the Gregorian instance. -/
def gregFns : Fns where
  nowParts t := (t.year, t.month, t.day)
  partValue := gregPartValue
  create := gregCreate

/-- absolute/root.go:13-26 `Parse`. -/
def absoluteParse (cfg : Cfg) (sysNow : Time) (monthFirst : Nat → Bool) (str : List Char)
    (tz : Option Tz) : Except Fault DateRes :=
  let e : AEnv := { fns := gregFns, cfg := cfg, sysNow := sysNow, monthFirst := monthFirst }
  match absInit e str with
  | .error f => .error f
  | .ok s => absParse e s tz

end Verif.Model
