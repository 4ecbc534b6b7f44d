import Verif.Model.Loader
/-! # Specification vocabulary: which locales are asked for -/
set_option autoImplicit false
namespace Verif.Spec
open Verif.Model Verif.Data

/-- The code is in the locale table. -/
def KnownLocale (x : Name) : Prop := x ∈ localeData.map (·.1)
instance (x : Name) : Decidable (KnownLocale x) := by unfold KnownLocale; infer_instance
/-- The code is in the language table. -/
def KnownLanguage (x : Name) : Prop := x ∈ languageOrder.map (·.1)

/-- The code for a language: itself, or with a region `language-REGION`. -/
def code (region lang : Name) : Name := if region = [] then lang else lang ++ '-' :: region

/-- What a configuration asks for: the locales given; without any, the known codes of the languages given; without
any of these either, those of all languages.  `region` in upper case, without blanks around. -/
def AskedFor (locales languages : List Name) (region : Name) (x : Name) : Prop :=
  if locales ≠ [] then x ∈ locales
  else KnownLocale x ∧ ∃ lang, x = code region lang ∧ if languages = [] then KnownLanguage lang else lang ∈ languages

/-- Language by language popularity, then alphabetical. -/
def Earlier (rank : Name → Nat) (x y : Name) : Prop := rank x < rank y ∨ (rank x = rank y ∧ x < y)

/-- The elements of a list, each where it first occurs. -/
def firsts : List Name → List Name
  | [] => []
  | x :: r => x :: (firsts r).filter (· ≠ x)

end Verif.Spec
