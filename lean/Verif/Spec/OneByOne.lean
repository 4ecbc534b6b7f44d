import Verif.Spec.Parser
/-! # Specification vocabulary: asking for one locale only -/
set_option autoImplicit false
namespace Verif.Spec
open Verif.Go Verif.Model

/-- The same configuration, asking for one locale only. -/
def asking (c : PCfg) (x : Name) : PCfg := { c with locales := [x], languages := [], region := [] }

/-- What may be asked for: known locales, no two of the same language; or, without locales, known languages. -/
def Acceptable (locales languages : List Name) : Prop :=
  if locales ≠ [] then (∀ x ∈ locales, KnownLocale x) ∧ ∀ x ∈ locales, ∀ y ∈ locales, x ≠ y → removeRegion x ≠ removeRegion y
  else ∀ x ∈ languages, KnownLanguage x

/-- Two configurations that differ at most in the languages, locales and region asked for and in how these are ordered. -/
def SameButAsked (c c' : PCfg) : Prop :=
  c' = { c with locales := c'.locales, languages := c'.languages, region := c'.region, useGivenOrder := c'.useGivenOrder }

end Verif.Spec
