import Verif.Spec.Whole
import Verif.Spec.Timezone
/-! # Specification: dates and times as written by ISO 8601 and RFC 3339 -/
set_option autoImplicit false
namespace Verif.Spec
open Verif.Go Verif.Model Verif.Data

/-- Four digits. -/
def four (n : Nat) : List Char := [digitChar (n / 1000), digitChar (n / 100 % 10), digitChar (n / 10 % 10), digitChar (n % 10)]
/-- Three digits. -/
def three (n : Nat) : List Char := [digitChar (n / 100), digitChar (n / 10 % 10), digitChar (n % 10)]

/-- A date and time of day; milliseconds if they are to be written. -/
structure IsoStamp where
  year : Nat
  month : Nat
  day : Nat
  hour : Nat
  minute : Nat
  second : Nat
  milli : Option Nat := none

/-- An existing day, in a year from 2 to 9999, and an existing time of day. -/
structure IsoStamp.OK (s : IsoStamp) : Prop where
  date : IsDate s.year s.month s.day
  year2 : 2 ≤ s.year
  year : s.year < 10000
  hour : s.hour < 24
  minute : s.minute < 60
  second : s.second < 60
  milli : ∀ k, s.milli = some k → k < 1000

/-- The nanoseconds. -/
def IsoStamp.nano (s : IsoStamp) : Int := 1000000 * ((s.milli.getD 0 : Nat) : Int)

/-- "2015-03-05", the character between, "10:11:12" or "10:11:12.345". -/
def IsoStamp.write (s : IsoStamp) (between : Char) : List Char :=
  four s.year ++ '-' :: (two s.month ++ '-' :: (two s.day ++ between :: (two s.hour ++ ':' :: (two s.minute ++ ':' :: (two s.second ++
    match s.milli with | none => [] | some k => '.' :: three k)))))

/-- "+05:30" or "+0530". -/
def offsetText (neg : Bool) (h m : Nat) (colon : Bool) : List Char := signChar neg :: (two h ++ (if colon then [':'] else []) ++ two m)

/-- "T", "t" or a space. -/
def IsBetween (c : Char) : Prop := c = 'T' ∨ c = 't' ∨ c = ' '

/-- The instant, in the zone with this offset. -/
def IsoStamp.at (s : IsoStamp) (l : Loc) : Time := goDate s.year s.month s.day s.hour s.minute s.second s.nano l

/-- The date order in use reads a month before a day. -/
def MonthBeforeDay (c : PCfg) : Prop := ∃ o : Order, toLower (englishOrder c) = o.letters ∧ o.monthFirst = true

/-- The same in a locale: its own date order, or the configured one. -/
def MonthBeforeDayIn (l : LocaleInfo) (c : PCfg) : Prop := ∃ o : Order, orderLetters (orderIn l.name l.dateOrder c) = o.letters ∧ o.monthFirst = true

/-- The call succeeds with this locale, with this date and time of day in a zone with the offset `o`. -/
structure YieldsAtIn (n : Name) (E : Env) (s : ParserSt) (c : PCfg) (str : List Char) (p : Period) (st : IsoStamp) (o : Int) (r : DateRes) : Prop where
  result : (E.parse s (some c) str []).2 = .ok r
  locale : r.locale = n
  period : r.period = p
  shows : Shows r.time st.year st.month st.day st.hour st.minute st.second st.nano
  offset : ∀ x, r.time.loc.off x = o

/-- … with English. -/
abbrev YieldsAt := YieldsAtIn ['e', 'n']

/-- The stamp that shows a time, to the second or to the millisecond. -/
def IsoStamp.of (t : Time) (milli : Bool) : IsoStamp where
  year := t.year.toNat
  month := t.month.toNat
  day := t.day.toNat
  hour := t.hour.toNat
  minute := t.minute.toNat
  second := t.second.toNat
  milli := if milli then some (t.nsec / 1000000).toNat else none

end Verif.Spec
