import Verif.Model.Calendars
import Verif.Spec.Whole
import Verif.Spec.Clock
/-! # Specification vocabulary: Jalali and Hijri dates -/
set_option autoImplicit false
namespace Verif.Spec
open Verif.Go Verif.Model

/-- The names of the months of the Jalali calendar, in Persian. -/
def persianMonths : List (List Char × Int) :=
  [("فروردین".toList, 1), ("اردیبهشت".toList, 2), ("خرداد".toList, 3), ("تیر".toList, 4), ("مرداد".toList, 5), ("امرداد".toList, 5),
   ("شهریور".toList, 6), ("مهر".toList, 7), ("آبان".toList, 8), ("ابان".toList, 8), ("آذر".toList, 9), ("اذر".toList, 9), ("دی".toList, 10),
   ("بهمن".toList, 11), ("اسفند".toList, 12)]

/-- The letters of these names, and of the words of a time of day, of weekdays and of numbers. -/
def persianLetters : List Char := "آابپتثجچحخدذرزسشصعفقکلمنهویء".toList

/-- "hour", in Persian. -/
def persianHour : List Char := "ساعت".toList

/-- "in the morning" and "in the evening", in Arabic. -/
def arabicMeridian : Meridian → List Char
  | .am => "صباحا".toList
  | .pm => "مساء".toList

def arabicEnd : Option Meridian → List Char
  | none => []
  | some mr => ' ' :: arabicMeridian mr

/-- The digit with the same value: ASCII for ASCII, Persian and Arabic digits. -/
def asciiDigit (c : Char) : Char :=
  if 0x6F0 ≤ c.toNat ∧ c.toNat ≤ 0x6F9 then Char.ofNat (48 + (c.toNat - 0x6F0))
  else if 0x660 ≤ c.toNat ∧ c.toNat ≤ 0x669 then Char.ofNat (48 + (c.toNat - 0x660))
  else c

/-- Digits of one of these scripts. -/
def AnyDigits (s : List Char) : Prop := ∀ c ∈ s, (asciiDigit c).isDigit = true

/-- ASCII, Persian letters, Persian and Arabic digits. -/
def PersianText (s : List Char) : Prop := ∀ c ∈ s, c.toNat < 128 ∨ c ∈ persianLetters ∨ (asciiDigit c).isDigit = true

/-- Alef with madda becomes alef. -/
def plainLetter (c : Char) : Char := if c = 'آ' then 'ا' else c

/-- The Unicode tables are right about ASCII, and about these letters and digits. -/
structure PersianUni (U : Uni) : Prop extends AsciiUni U where
  nfkcP : ∀ s, PersianText s → U.nfkc s = s.map plainLetter
  lowerP : ∀ s, PersianText s → U.lower s = toLower s
  isDigitP : ∀ c, PersianText [c] → U.isDigit c = (asciiDigit c).isDigit

/-- The surroundings, with such tables. -/
structure PersianSurroundings (E : Env) : Prop extends Surroundings E where
  persian : PersianUni E.uni

/-- The Jalali date is a day of the calendar, and this is the same day in the Gregorian one. -/
structure IsJalali (lib : JalaliLib) (y m d : Int) (g : Int × Int × Int) : Prop where
  length : ∃ n, lib.monthLength y m = some n ∧ d ≤ n
  leap : ∃ b, lib.isLeap y = some b ∧ (m = 12 ∧ d = 30 → b = true)
  same : lib.toGregorian y m d = some g

/-- The next leap year after a common one, at most 10000 years later; the last one before it. -/
def NextLeap (leap : Int → Option Bool) (y n : Int) : Prop :=
  y < n ∧ n ≤ y + 10000 ∧ leap n = some true ∧ ∀ z, y ≤ z → z < n → leap z = some false
def LastLeap (leap : Int → Option Bool) (y n : Int) : Prop :=
  n < y ∧ y ≤ n + 10000 ∧ leap n = some true ∧ ∀ z, n < z → z ≤ y → leap z = some false

/-- The leap year that stands in for the common year `y`: the next one if dates in the future are preferred, the last one if dates in
the past are, otherwise the nearer one, and the earlier one if both are equally near. -/
inductive StandsIn (leap : Int → Option Bool) (y : Int) : DateSource → Int → Prop
  | future {n : Int} : NextLeap leap y n → StandsIn leap y .future n
  | past {n : Int} : LastLeap leap y n → StandsIn leap y .past n
  | later {n p : Int} : NextLeap leap y n → LastLeap leap y p → n - y < y - p → StandsIn leap y .current n
  | earlier {n p : Int} : NextLeap leap y n → LastLeap leap y p → y - p ≤ n - y → StandsIn leap y .current p

/-- The year meant by two digits: 1361 to 1460 in the Jalali calendar, 1390 to 1489 in the Hijri one. -/
def jalaliCentury (n : Int) : Int := if n ≤ 60 then 1400 + n else 1300 + n
def hijriCentury (n : Int) : Int := if n ≤ 89 then 1400 + n else 1300 + n

/-- A time of day: hours, minutes and perhaps seconds. -/
def clockText (h m : List Char) (s : Option (List Char)) : List Char := h ++ ':' :: (m ++ match s with
  | none => []
  | some s => ':' :: s)

/-- The number in digits of one of these scripts. -/
def anyNumber (s : List Char) : Int := number (s.map asciiDigit)

/-- The seconds of a time of day. -/
def clockSecond : Option (List Char) → Int
  | none => 0
  | some s => anyNumber s

/-- The period of such a time of day. -/
def clockPeriod (s : Option (List Char)) : Period := if s.isSome then .second else .minute

/-- Hours of one or two digits, minutes and seconds of two digits, in their ranges; with "in the morning" or "in the evening" the hour
is from 1 to 12. -/
structure ClockOk (h m : List Char) (s : Option (List Char)) (mer : Option Meridian) : Prop where
  hours : IsShort (h.map asciiDigit)
  minutes : IsShort (m.map asciiDigit) ∧ m.length = 2
  seconds : ∀ x, s = some x → IsShort (x.map asciiDigit) ∧ x.length = 2
  hour : if mer.isSome then 1 ≤ anyNumber h ∧ anyNumber h ≤ 12 else anyNumber h < 24
  minute : anyNumber m < 60
  second : ∀ x, s = some x → anyNumber x < 60

/-- The hour on the 24 hour clock. -/
def clockHour (h : List Char) : Option Meridian → Int
  | none => anyNumber h
  | some mr => hour24 mr (anyNumber h)

/-- The date order used: "DMY" unless the configuration has another. -/
def calendarOrder (c : PCfg) : List Char := orderIn [] "DMY".toList c

end Verif.Spec
