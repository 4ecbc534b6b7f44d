import Verif.Model.SearchWhole
/-! # Specification: the settings with which a search reads a date -/
set_option autoImplicit false
namespace Verif.Spec
open Verif.Go Verif.Model

/-- `c'` has the settings of `c` that say how a text is read: time zone, what fills missing parts, past or future, strictness,
parts required, words to skip (`t` if there are none), languages tried last, the periods reported, the end of month. -/
structure SameSettings (c c' : PCfg) : Prop where
  zone : c'.defaultTz = c.defaultTz
  day : c'.dayOfMonth = c.dayOfMonth
  month : c'.monthOfYear = c.monthOfYear
  source : c'.dateSource = c.dateSource
  strict : c'.strict = c.strict
  required : c'.requiredParts = c.requiredParts
  skip : c'.skipTokens = if c.skipTokens = [] then [['t']] else c.skipTokens
  defaults : c'.defaultLanguages = c.defaultLanguages
  periods : c'.timeAsPeriod = c.timeAsPeriod
  endOfMonth : c'.preserveEndOfMonth = c.preserveEndOfMonth

/-- `Parse` answered `d`, a date, for this text with current time `t` (none: not given) and otherwise the settings of `c`. -/
def ReadWith (E : Env) (c : PCfg) (t : Option Time) (text : List Char) (d : DateRes) : Prop :=
  ∃ (s : ParserSt) (c' : PCfg), SameSettings c c' ∧ c'.currentTime = t.getD Time.zero ∧ (E.parse s (some c') text []).2 = .ok d ∧
    d.isZero = false

/-- The current times a search works with: the one given by the caller; if none is given, none, or the time of a date read
before. -/
inductive SearchTime (E : Env) (c : PCfg) : Option Time → Prop
  | given (h : c.currentTime.isZero = false) : SearchTime E c (some c.currentTime)
  | none (h : c.currentTime.isZero = true) : SearchTime E c none
  | found (h : c.currentTime.isZero = true) {t : Option Time} {text : List Char} {d : DateRes} (ht : SearchTime E c t)
      (hd : ReadWith E c t text d) : SearchTime E c (some d.time)

end Verif.Spec
