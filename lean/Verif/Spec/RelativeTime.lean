import Verif.Spec.Relative
/-! # Specification vocabulary: a relative date followed by a time of day -/
set_option autoImplicit false
namespace Verif.Spec
open Verif.Model Verif.Go

/-- Only white space between the words of the phrase (no commas or the like). -/
structure Phrase.Spaced (p : Phrase) : Prop where
  lead : ∀ w g, p.lead = some (w, g) → ∀ c ∈ g, IsBlank c
  more : ∀ x ∈ p.more, ∀ c ∈ x.1, IsBlank c
  ago : ∀ g w, p.ago = some (g, w) → ∀ c ∈ g, IsBlank c

/-- The day of a time, at another time of day, in the same time zone. -/
def atClock (t : Time) (c : Clock) : Time := goDate t.year t.month t.day c.hour c.minute c.second c.nano t.loc

/-- The finer of two periods. -/
def finer (p q : Period) : Period :=
  ([.second, .minute, .hour, .day, .month].find? fun x => x = p || x = q).getD .year

end Verif.Spec
