import Verif.Spec.Whole
import Verif.Spec.Total
import Verif.Spec.Clock
/-! # Specification: calls in any of the supported locales -/
set_option autoImplicit false
namespace Verif.Spec
open Verif.Go Verif.Model Verif.Data

/-- The call asks for this supported locale and no other: by its name, or by that of the language, for the 205 languages.
All parsers are asked, no words are skipped, and no locale from earlier calls could be preferred. -/
structure AsksOnly (l : LocaleInfo) (s : ParserSt) (c : PCfg) : Prop extends Only l.name s c where
  supported : getLocaleData l.name = some l
  language : c.languages = [l.name] → l.name ∈ languageOrder.map (·.1)

/-- A time of day on the 24 hour clock, with minutes and perhaps seconds: 9:05, 09:05, 9:05:07, 09:05:07. -/
inductive Hours : Notation → Prop
  | hm (h m : List Char) (hh : IsShort h) (hm : IsNumeral m) (lm : m.length = 2) : Hours (.hm h m)
  | hms (h m s : List Char) (hh : IsShort h) (hm : IsNumeral m) (lm : m.length = 2) (hs : IsNumeral s) (ls : s.length = 2) : Hours (.hms h m s)

end Verif.Spec
