import Verif.Spec.Calendar
import Verif.Spec.Text
/-!
# Specification vocabulary: dates written without separators

A format is a list of letters: `Y` four digit year, `y` two digit year, `m`, `d`, `H`, `M`, `S` month, day,
hour, minute, second of one or two digits.
-/
set_option autoImplicit false
namespace Verif.Spec

/-- A date and time being read; unread parts are 0. -/
structure Stamp where
  year : Int := 0
  month : Int := 0
  day : Int := 0
  hour : Int := 0
  minute : Int := 0
  second : Int := 0
deriving DecidableEq

/-- Write the number `v` into the part named by a letter; two digit years are 1969 to 2068. -/
def Stamp.put (s : Stamp) (letter : Char) (v : Int) : Stamp :=
  if letter = 'Y' then { s with year := v }
  else if letter = 'y' then { s with year := if 69 ≤ v then v + 1900 else v + 2000 }
  else if letter = 'm' then { s with month := v }
  else if letter = 'd' then { s with day := v }
  else if letter = 'H' then { s with hour := v }
  else if letter = 'M' then { s with minute := v }
  else if letter = 'S' then { s with second := v }
  else s

/-- How many digits a part may have; a four digit year does not begin with 0. -/
def PartText (letter : Char) (t : List Char) : Prop :=
  IsNumeral t ∧
    (if letter = 'Y' then t.length = 4 ∧ 1000 ≤ number t
     else if letter = 'y' then t.length = 2
     else t.length ≤ 2)

/-- The digits `ds`, cut into `parts` according to the format, read as `s'` (starting from `s`). -/
inductive Reads : Stamp → List Char → List (List Char) → Stamp → Prop
  | done (s : Stamp) : Reads s [] [] s
  | part (s s' : Stamp) (letter : Char) (format : List Char) (t : List Char) (ts : List (List Char)) :
      PartText letter t → Reads (s.put letter (number t)) format ts s' → Reads s (letter :: format) (t :: ts) s'

/-- `s` is a date and time of day that exists. -/
def Stamp.Exists (s : Stamp) : Prop :=
  IsDate s.year s.month s.day ∧ IsClock s.hour s.minute s.second 0

/-- A reading of the digits `ds` in a format: cutting `ds` into `parts` gives the existing date `s`. -/
def Reading (format ds : List Char) (parts : List (List Char)) (s : Stamp) : Prop :=
  parts.flatten = ds ∧ Reads {} format parts s ∧ s.Exists

/-- Comparing two ways to cut: at the first difference the first one takes more digits. -/
inductive Greedier : List (List Char) → List (List Char) → Prop
  | here (a b : List Char) (as bs : List (List Char)) : b.length < a.length → Greedier (a :: as) (b :: bs)
  | later (a b : List Char) (as bs : List (List Char)) : a.length = b.length → Greedier as bs → Greedier (a :: as) (b :: bs)

end Verif.Spec
