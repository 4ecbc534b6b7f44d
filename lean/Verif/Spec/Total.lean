import Verif.Model.Checked
import Verif.Data.Pats
/-! # Specification: a library with its locale data, and the calls made to a parser -/
set_option autoImplicit false
namespace Verif.Spec
open Verif.Go Verif.Model Verif.Data

/-- The library has the data of its 504 locales, each merged with its parent. -/
def HasLocaleData (E : Env) : Prop := ∀ x ∈ allLangs, E.lang x.1.name = (mergeLang x.2 x.1).lang E.uni

/-- The locales a parser remembers are supported ones (a new parser remembers none). -/
def KnownState (s : ParserSt) : Prop := ∀ l ∈ s.used, ∃ n, getLocaleData n = some l

/-- One call of `Parse`: configuration, text, formats. -/
structure ParseCall where
  cfg : Option PCfg
  text : List Char
  formats : List (List Char) := []

/-- The results of calls made one after the other, as long as they return. -/
inductive Returns (E : Env) : ParserSt → List ParseCall → List (Except ParseErr DateRes) → Prop
  | nil (s : ParserSt) : Returns E s [] []
  | cons {s s' : ParserSt} {c : ParseCall} {r : Except ParseErr DateRes} {cs : List ParseCall} {rs : List (Except ParseErr DateRes)}
      (h : E.parseC s c.cfg c.text c.formats = .ok (s', r)) (t : Returns E s' cs rs) : Returns E s (c :: cs) (r :: rs)

end Verif.Spec
