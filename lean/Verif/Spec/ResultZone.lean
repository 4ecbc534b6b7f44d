import Verif.Spec.Sources
/-! # The zone a date is in (C65) -/
set_option autoImplicit false
namespace Verif.Spec
open Verif.Go Verif.Model

/-- The zone of a date read from the text `t`, which named the time zone `tz` or none: the one named; else the default time zone, or an offset under its
name; else, without a default time zone, that of the current time, or UTC. -/
def ZoneFrom (c : PCfg) (now : Time) (tz : Option Tz) (T : Time) : Prop :=
  match tz, c.defaultTz with
  | some z, _ => T.loc = Loc.fixed z.name z.offset
  | none, some l => T.loc = l ∨ ∃ s, T.loc = Loc.fixed l.name (l.off s)
  | none, none => T.loc = (baseTime c now).loc ∨ T.loc = Loc.utc

end Verif.Spec
