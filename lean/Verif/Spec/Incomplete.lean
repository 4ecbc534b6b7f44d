import Verif.Spec.Whole
import Verif.Spec.Clock
import Verif.Spec.Preferences
/-! # Specification vocabulary: incomplete English dates -/
set_option autoImplicit false
namespace Verif.Spec
open Verif.Go Verif.Model

/-- Nothing is asked of the parts of a date. -/
structure Relaxed (c : PCfg) : Prop where
  strict : c.strict = false
  required : c.requiredParts = []

/-- The preferences, as numbered in config.go:9-45. -/
abbrev sourceOf (c : PCfg) : DateSource := DateSource.ofCode c.dateSource
abbrev dayPreference (c : PCfg) : DayOfMonth := DayOfMonth.ofCode c.dayOfMonth
abbrev monthPreference (c : PCfg) : MonthOfYear := MonthOfYear.ofCode c.monthOfYear

/-- The zone of the base time has one offset, of at most a day, and so has the default time zone. -/
structure FixedZones (c : PCfg) (now : Time) : Prop where
  fixed : (baseTime c now).loc.IsFixed
  base : SmallOffsets (baseTime c now).loc
  dflt : ∀ l, c.defaultTz = some l → SmallOffsets l

/-- "5 March" or "March 5". -/
def dayMonthText (dayFirst : Bool) (d mon : List Char) : List Char :=
  if dayFirst then d ++ ' ' :: mon else mon ++ ' ' :: d

/-- A time of day without a fraction of a second. -/
def Notation.plain : Notation → Bool
  | .hmsFrac .. => false
  | .hmsFracMer .. => false
  | _ => true

/-- A time of day as written in English: "10:11", "10:11 pm", "10:11pm", "at 10 pm" … -/
def timeText (at_ glued : Bool) (n : Notation) : List Char :=
  (if at_ then "at ".toList else []) ++
    match n with
    | .hour h mer => if glued then h ++ mer else n.text
    | .hmMer h m mer => if glued then h ++ ':' :: (m ++ mer) else n.text
    | .hmsMer h m s mer => if glued then h ++ ':' :: (m ++ ':' :: (s ++ mer)) else n.text
    | _ => n.text

end Verif.Spec
