import Verif.Spec.Formatted
import Verif.Spec.Whole
/-! # Specification vocabulary: `Parse` with layouts given by the caller -/
set_option autoImplicit false
namespace Verif.Spec
open Verif.Go Verif.Model

/-- The zone in which a text is read with a layout: the one named in the text, else the default time zone, else UTC. -/
def readingZone (E : Env) (c : PCfg) (str : List Char) : Loc :=
  match (popTzOffset E.table str).2 with
  | some z => Loc.fixed z.name z.offset
  | none => match c.defaultTz with
    | some l => l
    | none => Loc.utc

/-- Go's `time.ParseInLocation` refuses the text. -/
def DoesNotFit (E : Env) (c : PCfg) (str layout : List Char) : Prop := timeParseIn layout str (readingZone E c str) = none

/-- A call that gets as far as trying the layouts: a configuration that is accepted and known kinds of parsers. -/
structure Accepted (s : ParserSt) (c : PCfg) : Prop where
  valid : c.validate = .ok ()
  types : ∀ k ∈ s.types, k ≤ 5

/-- The call with these layouts succeeds with this result, which names no locale. -/
def ReadsAs (E : Env) (s : ParserSt) (c : PCfg) (str : List Char) (formats : List (List Char)) (p : Period) (t : Time) : Prop :=
  (E.parse s (some c) str formats).2 = .ok { period := p, time := t }

/-- The elements of a layout: a year, a month and a day. -/
structure FullDate (cs : List Chunk) : Prop where
  year : cs.any isYearElt = true
  month : cs.any isMonthElt = true
  day : cs.any isDayElt = true ∨ cs.any isYearDayElt = true

/-- No zone, neither as an offset nor by name. -/
structure NoZoneElt (cs : List Chunk) : Prop where
  offset : cs.any isZoneElt = false
  name : cs.any isZoneNameElt = false

end Verif.Spec
