import Verif.Spec.Relative
/-! # Specification vocabulary: amounts that are not whole, and how long a relative date is -/
set_option autoImplicit false
namespace Verif.Spec
open Verif.Model Verif.Go

/-- The amount as an exact number: `2.35` is 235/100. -/
def Item.value (i : Item) : Rat := (number (i.whole ++ i.decimals) : Rat) / ((10 ^ i.decimals.length : Nat) : Rat)

/-- Length of a unit in seconds; a month is 30 days, a year 12 months. -/
def RelUnit.seconds : RelUnit → Nat
  | .decade => 10 * (12 * (30 * 86400)) | .year => 12 * (30 * 86400) | .month => 30 * 86400 | .week => 7 * 86400
  | .day => 86400 | .hour => 3600 | .minute => 60 | .second => 1

/-- How long the phrase is, exactly. -/
def Phrase.seconds (p : Phrase) : Rat := (p.items.map fun i => i.value * (i.unit.seconds : Rat)).sum

/-- How many amounts, other than that of seconds, are not whole. -/
def Phrase.spreads (p : Phrase) : Nat := p.items.countP fun i => i.fractional && i.unit != .second

/-- Half a second if the number of seconds given is not whole, else 0. -/
def Phrase.halfSecond (p : Phrase) : Rat := if p.items.any (fun i => i.fractional && i.unit == .second) then 1 / 2 else 0

/-- Calendar and clock units a phrase is turned into. -/
structure Span where
  years : Nat
  months : Nat
  days : Nat
  hours : Nat
  minutes : Nat
  seconds : Nat

/-- Their length in seconds. -/
def Span.length (q : Span) : Nat :=
  12 * (30 * 86400) * q.years + 30 * 86400 * q.months + 86400 * q.days + 3600 * q.hours + 60 * q.minutes + q.seconds

/-- A time moved by these parts, forward for `s = 1`, backward for `s = −1`. -/
def Span.move (q : Span) (keepEnd : Bool) (s : Int) (now : Time) : Time :=
  later (moved keepEnd now (s * q.years) (s * q.months) (s * q.days)) (s * (3600 * q.hours + 60 * q.minutes + q.seconds))

/-- The finest unit mentioned or needed. -/
def Phrase.periodWith (p : Phrase) (q : Span) : Period :=
  if p.has .second || q.seconds != 0 then .second
  else if p.has .minute || q.minutes != 0 then .minute
  else if p.has .hour || q.hours != 0 then .hour
  else if p.has .day || p.has .week || q.days != 0 then .day
  else if p.has .month || q.months != 0 then .month
  else .year

end Verif.Spec
