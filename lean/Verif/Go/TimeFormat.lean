import Verif.Go.TimeParse
/-!
# `Time.Format`

Model of `Time.Format` (Go standard library, `time/format.go`: `appendInt`, `appendNano`, `appendFormat`).
-/
set_option autoImplicit false
namespace Verif.Go

/-- The character of a digit. -/
def digitOf (n : Nat) : Char := Char.ofNat (48 + n)

/-- The last `w` decimal digits of a number. -/
def digitsW : Nat → Nat → List Char
  | 0, _ => []
  | w + 1, n => digitsW w (n / 10) ++ [digitOf (n % 10)]

/-- The decimal digits of a number. -/
def natDigits (n : Nat) : List Char :=
  if n < 10 then [digitOf n] else natDigits (n / 10) ++ [digitOf (n % 10)]
termination_by n

/-- `appendInt` of a number that is not negative: zero-padded to the width `w`. -/
def padNat (w n : Nat) : List Char := if 0 < w ∧ n < 10 ^ w then digitsW w n else natDigits n

/-- `appendInt`. -/
def padInt (w : Nat) (x : Int) : List Char := if x < 0 then '-' :: padNat w x.natAbs else padNat w x.toNat

/-- `t.YearDay()`. -/
def Time.yearDay (t : Time) : Int := daysBeforeMonth t.year t.month + t.day

/-- Without the trailing zeros. -/
def dropZeros (ds : List Char) : List Char := (ds.reverse.dropWhile (· == '0')).reverse

/-- `appendNano`: the digits of the fraction, `n` of them (at most nine). -/
def fracDigits (n : Nat) (ns : Int) : List Char := (digitsW 9 ns.toNat).take n

/-- A numeric zone. -/
def formatZone (iso colon : Bool) (n : Nat) (off : Int) : List Char :=
  if iso && off == 0 then ['Z']
  else
    let zone := Int.tdiv off 60
    let neg := decide (zone < 0)
    let absoff := if neg then -off else off
    let sep := if colon then [':'] else []
    (if neg then '-' else '+') :: (padInt 2 (zone.natAbs / 60 : Nat) ++
      (if 2 ≤ n then sep ++ padInt 2 (zone.natAbs % 60 : Nat) else []) ++
      (if 3 ≤ n then sep ++ padInt 2 (Int.tmod absoff 60) else []))

/-- One layout element. -/
def formatChunk (t : Time) : Chunk → List Char
  | .lit c => [c]
  | .spaces n => List.replicate n ' '
  | .year2 => padInt 2 (if t.year < 0 then 0 else t.year % 100)
  | .year4 => padInt 4 t.year
  | .month3 => (longMonthNames.getD (t.month - 1).toNat []).take 3
  | .monthLong => longMonthNames.getD (t.month - 1).toNat []
  | .month1 => padInt 0 t.month
  | .month01 => padInt 2 t.month
  | .wday3 => (longDayNames.getD t.weekday.toNat []).take 3
  | .wdayLong => longDayNames.getD t.weekday.toNat []
  | .day2 => padInt 0 t.day
  | .day02 => padInt 2 t.day
  | .dayUnder => (if t.day < 10 then [' '] else []) ++ padInt 0 t.day
  | .hour15 => padInt 2 t.hour
  | .hour3 => padInt 0 (if t.hour % 12 = 0 then 12 else t.hour % 12)
  | .hour03 => padInt 2 (if t.hour % 12 = 0 then 12 else t.hour % 12)
  | .min4 => padInt 0 t.minute
  | .min04 => padInt 2 t.minute
  | .sec5 => padInt 0 t.second
  | .sec05 => padInt 2 t.second
  | .pm => if 12 ≤ t.hour then ['P', 'M'] else ['A', 'M']
  | .pmLower => if 12 ≤ t.hour then ['p', 'm'] else ['a', 'm']
  | .frac9 sep n =>
    if (dropZeros (fracDigits n t.nsec)).isEmpty then [] else sep :: dropZeros (fracDigits n t.nsec)
  | .frac0 sep n => sep :: fracDigits n t.nsec
  | .yday3 => padInt 3 t.yearDay
  | .ydayUnder => (if t.yearDay < 100 then [' '] else []) ++ (if t.yearDay < 10 then [' '] else []) ++ padInt 0 t.yearDay
  | .zone iso colon n => formatZone iso colon n (t.loc.off t.sec)
  | .tzName =>
    if t.loc.abbr t.sec ≠ [] then t.loc.abbr t.sec
    else
      let zone := Int.tdiv (t.loc.off t.sec) 60
      (if zone < 0 then '-' else '+') :: (padInt 2 (zone.natAbs / 60 : Nat) ++ padInt 2 (zone.natAbs % 60 : Nat))

/-- `t.Format(layout)` with the layout already split. -/
def formatWith (cs : List Chunk) (t : Time) : List Char := cs.flatMap (formatChunk t)

/-- `t.Format(layout)`. -/
def timeFormat (layout : List Char) (t : Time) : List Char := formatWith (layoutChunks layout) t

end Verif.Go
