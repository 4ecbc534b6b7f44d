import Verif.Go.TimeFormat
import Verif.Spec.Calendar
/-!
# Specification: texts written by a layout

What it takes for a text written by `Time.Format` to be readable by the same layout, and what the layout says about the
time.  `layoutChunks` splits a layout into its elements, as the documentation of Go's package `time` lists them.
-/
set_option autoImplicit false
namespace Verif.Spec
open Verif.Go

/-! ## The elements of a layout -/

/-- "2006" and "06". -/
def isYearElt : Chunk → Bool | .year2 | .year4 => true | _ => false
/-- "Jan", "January", "1" and "01". -/
def isMonthElt : Chunk → Bool | .month3 | .monthLong | .month1 | .month01 => true | _ => false
/-- "2", "02" and "_2". -/
def isDayElt : Chunk → Bool | .day2 | .day02 | .dayUnder => true | _ => false
/-- "002" and "__2". -/
def isYearDayElt : Chunk → Bool | .yday3 | .ydayUnder => true | _ => false
/-- "15". -/
def isHour24Elt : Chunk → Bool | .hour15 => true | _ => false
/-- "3" and "03". -/
def isHour12Elt : Chunk → Bool | .hour3 | .hour03 => true | _ => false
/-- "PM" and "pm". -/
def isMeridianElt : Chunk → Bool | .pm | .pmLower => true | _ => false
/-- "4" and "04". -/
def isMinuteElt : Chunk → Bool | .min4 | .min04 => true | _ => false
/-- "5" and "05". -/
def isSecondElt : Chunk → Bool | .sec5 | .sec05 => true | _ => false
/-- ".999" and ".000". -/
def isFracElt : Chunk → Bool | .frac9 _ _ | .frac0 _ _ => true | _ => false
/-- "-0700", "Z07:00", … -/
def isZoneElt : Chunk → Bool | .zone _ _ _ => true | _ => false
/-- "MST". -/
def isZoneNameElt : Chunk → Bool | .tzName => true | _ => false

/-! ## Unambiguous texts -/

/-- The text does not go on with a digit. -/
def NoDigitNext (r : List Char) : Prop := ∀ c, r.head? = some c → c.isDigit = false
/-- The text does not go on with a point or comma and a digit. -/
def NoFractionNext (r : List Char) : Prop :=
  ∀ p d x, r = p :: d :: x → p = '.' ∨ p = ',' → d.isDigit = false

/-- In the text that the layout writes for `t`, where an element ends is clear from the text: a number of variable width is not
followed by a digit, a second not by a fraction that does not belong to it, a space not by further spaces, and
fractions have at most nine digits. -/
def EndsClearly (t : Time) (c : Chunk) (cs : List Chunk) : Prop :=
  match c with
  | .month1 | .day2 | .dayUnder | .hour3 | .min4 | .ydayUnder => NoDigitNext (formatWith cs t)
  | .sec5 => NoDigitNext (formatWith cs t) ∧ (nextIsFrac (nextStd cs) = true ∨ NoFractionNext (formatWith cs t))
  | .sec05 => nextIsFrac (nextStd cs) = true ∨ NoFractionNext (formatWith cs t)
  | .frac9 _ _ => NoDigitNext (formatWith cs t) ∧ NoFractionNext (formatWith cs t)
  | .frac0 _ n => n ≤ 9
  | .spaces _ => (formatWith cs t).head? = some ' ' → cs.head? = some .dayUnder ∨ cs.head? = some .ydayUnder
  | .tzName => ∀ c, (formatWith cs t).head? = some c → ¬ ('A' ≤ c ∧ c ≤ 'Z') ∧ c ≠ '+' ∧ c ≠ '-'
  | _ => True

/-- Every element ends clearly. -/
def Unambiguous (t : Time) : List Chunk → Prop
  | [] => True
  | c :: cs => EndsClearly t c cs ∧ Unambiguous t cs

/-- A zone offset that can be written exactly with this many two-digit numbers. -/
def ExactZone (off : Int) (n : Nat) : Prop :=
  -86400 ≤ off ∧ off ≤ 86400 ∧ (if n = 1 then off % 3600 = 0 else if n = 2 then off % 60 = 0 else 0 ≤ off ∨ off ≤ -60)

/-- A zone abbreviation of three or four letters that Go recognises. -/
def IsAbbr (s : List Char) : Prop :=
  (∀ c ∈ s, 'A' ≤ c ∧ c ≤ 'Z') ∧ (s.length = 3 ∨
    (s.length = 4 ∧ s.getLast? = some 'T' ∧ s.take 3 ≠ ['U', 'T', 'C'] ∧ s.take 3 ≠ ['G', 'M', 'T']))

/-- What the layout writes determines its part of the time: the year has four digits, a two-digit year lies in the window
1969–2068, and the zone can be written exactly. -/
structure Writable (t : Time) (cs : List Chunk) : Prop where
  wf : t.WF
  year : 1 ≤ t.year ∧ t.year ≤ 9999
  short : Chunk.year2 ∈ cs → 1969 ≤ t.year ∧ t.year ≤ 2068
  zone : ∀ iso colon n, Chunk.zone iso colon n ∈ cs → ExactZone (t.loc.off t.sec) n
  abbr : Chunk.tzName ∈ cs → IsAbbr (t.loc.abbr t.sec)

/-- The hour, minute, second and fraction of a second that a layout with these elements says; what is missing is zero.  `n` is
the number of digits of the fraction. -/
structure SaysClock (t : Time) (cs : List Chunk) (n : Nat) (H M S ns : Int) : Prop where
  /-- A 12-hour clock with AM or PM, or a 24-hour clock, or no hour at all. -/
  hour : (cs.any isHour24Elt = true ∨ (cs.any isHour12Elt = true ∧ cs.any isMeridianElt = true)) ∧
      (cs.any isHour12Elt = true → cs.any isMeridianElt = true) ∧ H = t.hour ∨
    cs.any isHour24Elt = false ∧ cs.any isHour12Elt = false ∧ cs.any isMeridianElt = false ∧ H = 0
  minute : M = if cs.any isMinuteElt then t.minute else 0
  second : S = if cs.any isSecondElt then t.second else 0
  digits : n ≤ 9
  frac : ∀ sep k, Chunk.frac9 sep k ∈ cs ∨ Chunk.frac0 sep k ∈ cs → k = n
  nano : ns = if cs.any isFracElt then t.nsec / 10 ^ (9 - n) * 10 ^ (9 - n) else 0

end Verif.Spec
