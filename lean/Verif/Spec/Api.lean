import Verif.Model.Api
import Verif.Spec.Parser
import Verif.Spec.Detect
import Verif.Spec.SearchEnglish
/-! # Specification vocabulary: one `Parser` object used for many calls -/
set_option autoImplicit false
namespace Verif.Spec
open Verif.Go Verif.Model Verif.Data

/-- When a call is made: the time of day, and the order in which Go happens to go through a map then. -/
structure Moment where
  now : Time
  monthFirst : Nat → Bool

/-- The surroundings at that moment. -/
def during (E : Env) (m : Moment) : Env := { E with now := m.now, monthFirst := m.monthFirst }

/-- A new `Parser` with this `DetectLanguagesFunction` and these `ParserTypes`. -/
def newObject (detect : Option (List Char → List Name)) (kinds : List Kind) : ParserObj := { st := newParser detect (kinds.map Kind.code) }

/-- `p` is the parser `new` after these calls, one after the other, whatever they returned. -/
inductive Used (E : Env) (compose : List Char → List Char) (new : ParserObj) : List (Moment × Request) → ParserObj → Prop
  | fresh : Used E compose new [] new
  | call {l : List (Moment × Request)} {p p' : ParserObj} {m : Moment} {r : Request} {a : Answer} (h : Used E compose new l p)
      (hc : (during E m).call compose p r = some (p', a)) : Used E compose new (l ++ [(m, r)]) p'

/-- The call of `Parse` asks for the locales of earlier calls. -/
def _root_.Verif.Model.Request.Remembering : Request → Prop
  | .parse c _ _ => (c.getD {}).tryPrevious = true
  | _ => False

/-- The call of `Search` gives a language twice. -/
def _root_.Verif.Model.Request.Repeats (detect : Option (List Char → List Name)) : Request → Prop
  | .search c text => (c.getD {}).locales = [] ∧ ¬ (givenLanguages detect (c.getD {}) text).Nodup
  | _ => False

/-- It is a call of `Parse`. -/
def _root_.Verif.Model.Request.isParse : Request → Bool
  | .parse .. => true
  | _ => false

/-- A reported result: this text, English, this day at midnight. -/
structure Reported (x : DatePhrase) (text : List Char) (r : SearchResult) : Prop where
  text : r.text = text
  locale : r.date.locale = ['e', 'n']
  period : r.date.period = .day
  shows : Shows r.date.time x.year x.month x.day 0 0 0 0

end Verif.Spec
