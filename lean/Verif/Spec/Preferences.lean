import Verif.Spec.Text
import Verif.Spec.Calendar
import Verif.Spec.Clock
/-! # Specification vocabulary: incomplete dates as written, and what the preferences ask for -/
set_option autoImplicit false
namespace Verif.Spec
open Verif.Go Verif.Model

/-- A day or month number: one or two digits. -/
def Short (s : List Char) : Prop := IsNumeral s ∧ s.length ≤ 2
/-- A year: four digits. -/
def Four (s : List Char) : Prop := IsNumeral s ∧ s.length = 4

/-- The separators of a numeric date: no period, or both just a period. -/
def SepPair (s1 s2 : List Char) : Prop :=
  IsSeparator s1 ∧ IsSeparator s2 ∧ (('.' ∉ s1 ∧ '.' ∉ s2) ∨ (s1 = ['.'] ∧ s2 = ['.']))

/-- A two digit number. -/
def Two (s : List Char) : Prop := IsNumeral s ∧ s.length = 2

/-- A day and a month name in either order. -/
inductive DayMonth (d mon sep : List Char) : List Char → Prop
  | dm : DayMonth d mon sep (d ++ sep ++ mon)
  | md : DayMonth d mon sep (mon ++ sep ++ d)

/-- A year and a month name in either order. -/
inductive MonthYear (mon y sep : List Char) : List Char → Prop
  | my : MonthYear mon y sep (mon ++ sep ++ y)
  | ym : MonthYear mon y sep (y ++ sep ++ mon)

/-! ## Preferences -/

/-- The current time a configuration stands for. -/
def nowOf (cfg : Cfg) (sysNow : Time) : Time := if cfg.currentTime.isZero then sysNow else cfg.currentTime

/-- Strict parsing asks for nothing here. -/
def Lenient (cfg : Cfg) : Prop := cfg.strict = false ∧ cfg.requiredParts = []

/-- The result follows the preference: with Past the latest, with Future the earliest occurrence of
the day `m`/`d` at this time of day on the right side of `now`; otherwise this year's (for 29
February the nearest leap year's, the earlier one on a tie). -/
def RightYear (src : DateSource) (now : Time) (m d H M S ns Y : Int) : Prop :=
  match src with
  | .past => now.before (goDate Y m d H M S ns now.loc) = false ∧
      ∀ z, Y < z → IsDate z m d → now.before (goDate z m d H M S ns now.loc) = true
  | .future => now.before (goDate Y m d H M S ns now.loc) = true ∧
      ∀ z, z < Y → IsDate z m d → now.before (goDate z m d H M S ns now.loc) = false
  | .current => (IsDate now.year m d → Y = now.year) ∧
      (¬ IsDate now.year m d → ∀ z, IsDate z m d →
        (Y - now.year).natAbs ≤ (z - now.year).natAbs ∧
        ((Y - now.year).natAbs = (z - now.year).natAbs → Y ≤ z))

/-- The orders in which a day comes before the year. -/
def Order.dayBeforeYear : Order → Prop
  | .dmy | .dym | .mdy => True
  | _ => False

/-- The admissible shifts for each preference. -/
def ShiftOK : DateSource → Int → Prop
  | .future, k => 1 ≤ k ∧ k ≤ 7
  | .past, k => -7 ≤ k ∧ k ≤ -1
  | .current, k => -6 ≤ k ∧ k ≤ 0

instance (s : DateSource) (k : Int) : Decidable (ShiftOK s k) := by
  cases s <;> unfold ShiftOK <;> infer_instance

/-- The year 1969..2068 with the same last two digits. -/
def pivotYear (n : Int) : Int := if 69 ≤ n then 1900 + n else 2000 + n

/-- The year after the preference has been applied: `later` tells whether the date in the year `Y` is
later than the current time. -/
def centuryFor (src : DateSource) (later : Bool) (Y : Int) : Int :=
  match src, later with
  | .past, true => Y - 100
  | .future, false => Y + 100
  | _, _ => Y

/-- Whether the time of day is moved to the day before or after: with Past when it would be later than
now, with Future when it would be earlier. -/
def dayShift (src : DateSource) (now moment : Time) : Int :=
  match src with
  | .past => if now.before moment then -1 else 0
  | .future => if moment.before now then 1 else 0
  | .current => 0

/-- The offset of the zone named in the string, else of the default zone, else 0. -/
def namedOffset (cfg : Cfg) (tz : Option Tz) (t : Time) : Int :=
  match tz with
  | some z => z.offset
  | none => match cfg.defaultTz with
    | some l => l.off t.sec
    | none => 0

/-- The day a missing day becomes, in a month of `len` days. -/
def chosenDay (p : DayOfMonth) (today len : Int) : Int :=
  match p with
  | .first => 1
  | .last => len
  | .current => if today ≤ len then today else len

/-- The month a missing month becomes. -/
def chosenMonth (p : MonthOfYear) (thisMonth : Int) : Int :=
  match p with
  | .first => 1
  | .last => 12
  | .current => thisMonth

/-- The year of a month without year and day: with Past a month later in the year than the current one is
last year's, with Future the current month and the earlier ones are next year's. -/
def monthYearFor (src : DateSource) (now : Time) (m : Int) : Int :=
  match src with
  | .past => if now.month < m then now.year - 1 else now.year
  | .future => if m ≤ now.month then now.year + 1 else now.year
  | .current => now.year

/-- The time with at most six digits of fraction. -/
def cut6 : Notation → Notation
  | .hmsFrac h m s f => .hmsFrac h m s (f.take 6)
  | .hmsFracMer h m s f mer => .hmsFracMer h m s (f.take 6) mer
  | n => n

end Verif.Spec
