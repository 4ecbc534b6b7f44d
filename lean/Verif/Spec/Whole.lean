import Verif.Model.Whole
import Verif.Data.LangEn
import Verif.Spec.Text
import Verif.Spec.Calendar
import Verif.Spec.Relative
/-! # Specification vocabulary: `Parse` from the outside, for English -/
set_option autoImplicit false
namespace Verif.Spec
open Verif.Go Verif.Model Verif.Data

/-- The Unicode tables are right about ASCII. -/
structure AsciiUni (U : Uni) : Prop where
  nfkc : ∀ s, (∀ c ∈ s, c.toNat < 128) → U.nfkc s = s
  lower : ∀ s, (∀ c ∈ s, c.toNat < 128) → U.lower s = toLower s
  isDigit : ∀ c : Char, c.toNat < 128 → U.isDigit c = c.isDigit
  isNumber : ∀ c : Char, c.toNat < 128 → U.isNumber c = c.isDigit
  isLetter : ∀ c : Char, c.toNat < 128 → U.isLetter c = c.isAlpha
  isMark : ∀ c : Char, c.toNat < 128 → U.isMark c = false

/-- What the surroundings of the library have to satisfy: Unicode tables that are right about ASCII, the time zone table in
some order, a system clock not in the year 1.  The locale data is anything. -/
structure Surroundings (E : Env) : Prop where
  uni : AsciiUni E.uni
  table : IsTable E.table
  clock : E.now.isZero = false

/-- … and the English locale data. -/
structure Sound (E : Env) : Prop extends Surroundings E where
  english : E.lang ['e', 'n'] = enData.lang E.uni

/-- Nothing in the configuration or the parser comes before English: no locales, no region, no languages (and no language
detection) or English alone; all parsers, no words to skip; and no locale from earlier calls that could be preferred. -/
structure EnglishFirst (s : ParserSt) (c : PCfg) : Prop where
  valid : c.validate = .ok ()
  locales : c.locales = []
  region : c.region = []
  languages : c.languages = [['e', 'n']] ∨ (c.languages = [] ∧ s.detect = none)
  skip : c.skipTokens = []
  types : s.types = []
  previous : c.tryPrevious = false ∨ s.used = []

/-- The time a call with this configuration starts from. -/
def baseTime (c : PCfg) (now : Time) : Time := if c.currentTime.isZero then now.inLoc Loc.utc else c.currentTime

/-- Offsets of at most a day. -/
def SmallOffsets (l : Loc) : Prop := ∀ t, -86400 ≤ l.off t ∧ l.off t ≤ 86400

/-- The zones involved: the base time's zone does not jump at the wall clock `w`; offsets are at most a day. -/
structure ZonesOk (c : PCfg) (now : Time) (w : Int) : Prop where
  noJump : (baseTime c now).loc.NoJump w
  base : SmallOffsets (baseTime c now).loc
  dflt : ∀ l, c.defaultTz = some l → SmallOffsets l

/-- Only this locale is asked for, as a locale or as a language; all parsers, no words to skip; and no locale from earlier calls that could
be preferred. -/
structure Only (n : Name) (s : ParserSt) (c : PCfg) : Prop where
  valid : c.validate = .ok ()
  chosen : (c.locales = [n] ∧ c.languages = []) ∨ (c.locales = [] ∧ c.languages = [n])
  region : c.region = []
  skip : c.skipTokens = []
  types : s.types = []
  previous : c.tryPrevious = false ∨ s.used = []

/-- The date order a call uses for a locale with this own date order. -/
def orderIn (n : Name) (own : List Char) (c : PCfg) : List Char :=
  match c.dateOrder with
  | some f => if (toUpper (f n)).Perm "DMY".toList then toUpper (f n) else own
  | none => own

/-- The date order a call uses for English. -/
def englishOrder (c : PCfg) : List Char := orderIn ['e', 'n'] "MDY".toList c

/-- The call succeeds with this locale and with this date and time; in the zone of the base time unless there is a default
time zone. -/
structure YieldsIn (n : Name) (E : Env) (s : ParserSt) (c : PCfg) (str : List Char) (p : Period) (y m d H M S ns : Int) (r : DateRes) : Prop where
  result : (E.parse s (some c) str []).2 = .ok r
  locale : r.locale = n
  period : r.period = p
  shows : Shows r.time y m d H M S ns
  zone : c.defaultTz = none → r.time = goDate y m d H M S ns (baseTime c E.now).loc
  /-- with a default time zone, in an offset of this zone -/
  dflt : ∀ z, c.defaultTz = some z → ∃ t, r.time.loc = Loc.fixed z.name (z.off t)

/-- The call succeeds with English. -/
abbrev Yields := YieldsIn ['e', 'n']

/-- The separators of a numeric date: "/", "." or, with the year first, "-". -/
def NumericSep (w : Order) (sep : Char) : Prop := sep = '/' ∨ sep = '.' ∨ (sep = '-' ∧ w.yearPlace = 0)

/-- The ways to write a date with a month name: 5 March 2015; March 5, 2015; March 5 2015. -/
inductive MonthForm where
  | dayFirst | comma | plain

/-- As written. -/
def MonthForm.write (f : MonthForm) (d mon y : List Char) : List Char :=
  match f with
  | .dayFirst => d ++ ' ' :: (mon ++ ' ' :: y)
  | .comma => mon ++ ' ' :: (d ++ ',' :: ' ' :: y)
  | .plain => mon ++ ' ' :: (d ++ ' ' :: y)

/-! ## Relative dates -/

/-- The units as written in English. -/
def unitNames : List (List Char × RelUnit) :=
  [.decade, .year, .month, .week, .day, .hour, .minute, .second].flatMap fun u => [(u.name, u), (u.name ++ ['s'], u)]
def unitAbbreviations : List (List Char × RelUnit) :=
  [("hr".toList, .hour), ("hrs".toList, .hour), ("min".toList, .minute), ("mins".toList, .minute),
   ("sec".toList, .second), ("secs".toList, .second), ("yr".toList, .year)]

/-- The ways to write an amount of time from now: 3 days ago; in 3 days; 3 days later. -/
inductive RelForm where
  | ago | within | later

def RelForm.write (f : RelForm) (n w : List Char) : List Char :=
  match f with
  | .ago => n ++ ' ' :: (w ++ " ago".toList)
  | .within => "in ".toList ++ (n ++ ' ' :: w)
  | .later => n ++ ' ' :: (w ++ " later".toList)

/-- The words for units, in any letter case; "later" with full names only. -/
def RelForm.IsUnit (f : RelForm) (w : List Char) (u : RelUnit) : Prop :=
  (toLower w, u) ∈ unitNames ∨ (f ≠ .later ∧ (toLower w, u) ∈ unitAbbreviations)

def RelForm.sign : RelForm → Int
  | .ago => -1
  | .within => 1
  | .later => 1

/-- The unit is a part of the day. -/
def RelUnit.isClock : RelUnit → Bool
  | .hour => true
  | .minute => true
  | .second => true
  | _ => false

/-- A time moved by `k` units. -/
def RelUnit.shift (u : RelUnit) (keepEnd : Bool) (k : Int) (t : Time) : Time :=
  match u with
  | .decade => moved keepEnd t (10 * k) 0 0
  | .year => moved keepEnd t k 0 0
  | .month => moved keepEnd t 0 k 0
  | .week => moved keepEnd t 0 0 (7 * k)
  | .day => moved keepEnd t 0 0 k
  | .hour => later t (3600 * k)
  | .minute => later t (60 * k)
  | .second => later t k

/-- What a result counts in: years, months, days or (if asked for) parts of the day. -/
def RelUnit.period (u : RelUnit) (timeAsPeriod : Bool) : Period :=
  match u with
  | .decade => .year
  | .year => .year
  | .month => .month
  | .week => .day
  | .day => .day
  | .hour => if timeAsPeriod then .hour else .day
  | .minute => if timeAsPeriod then .minute else .day
  | .second => if timeAsPeriod then .second else .day

/-- The base time in the zone that applies. -/
def zonedBase (c : PCfg) (now : Time) : Time :=
  match c.defaultTz with
  | none => baseTime c now
  | some l => { baseTime c now with loc := l }

/-- `time.Date` gives the time back from its own fields: the zone's clock does not show this time twice. -/
def FirmClock (t : Time) : Prop := goDate t.year t.month t.day t.hour t.minute t.second t.nsec t.loc = t

/-- Words for an amount of time from now. -/
def englishRelative : List (String × Int × RelUnit) :=
  [("now", 0, .second), ("today", 0, .day), ("yesterday", -1, .day), ("tomorrow", 1, .day), ("day before yesterday", -2, .day),
   ("day after tomorrow", 2, .day), ("last week", -1, .week), ("last month", -1, .month), ("last year", -1, .year),
   ("next week", 1, .week), ("next month", 1, .month), ("next year", 1, .year), ("this week", 0, .week), ("this month", 0, .month),
   ("this year", 0, .year), ("a week ago", -1, .week), ("an hour ago", -1, .hour), ("a minute ago", -1, .minute),
   ("a day ago", -1, .day), ("a month ago", -1, .month), ("a year ago", -1, .year), ("one day ago", -1, .day), ("two days ago", -2, .day),
   ("three weeks ago", -3, .week), ("ten minutes ago", -10, .minute), ("in a week", 1, .week), ("in an hour", 1, .hour), ("in two weeks", 2, .week)]

end Verif.Spec
