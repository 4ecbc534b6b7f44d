import Verif.Model.Detector
import Verif.Data.Charsets
/-!
# `Search` and `SearchWithLanguage` as a whole

The search of `Model.Search`, `Model.Language` and `Model.Detector` with the library's own parser and language data.
-/
set_option autoImplicit false
namespace Verif.Model
open Verif.Go Verif.Data

/-! ## timezone/parser.go: `WordIsTz` -/

/-- A part of a search pattern without `(?i)`. -/
def TzItem.rxCase : TzItem → Rx
  | .lit c => .chr (· == c)
  | .utcGmt => .alt (Rx.lit ['U', 'T', 'C']) (Rx.lit ['G', 'M', 'T'])
  | .optColon => .opt (.chr (· == ':'))
  | .dots => .star rxDot

def itemsRxCase : List TzItem → Rx
  | [] => .eps
  | i :: r => .seq i.rxCase (itemsRxCase r)

/-- timezone/parser.go:22-24 `WordIsTz`; tz-offsets.go:67-75 `rxSearch`: the alternation of all search patterns. -/
def wordIsTz (t : List TzEntry) (word : List Char) : Bool := t.any fun e => (itemsRxCase e.items).matches word

/-! ## config.go -/

def DayOfMonth.code : DayOfMonth → Nat
  | .current => 0 | .first => 1 | .last => 2
def MonthOfYear.code : MonthOfYear → Nat
  | .current => 0 | .first => 1 | .last => 2
def DateSource.code : DateSource → Nat
  | .current => 0 | .past => 1 | .future => 2

/-- config.go:235-249 `configFromInternal`. -/
def PCfg.fromInternal (c : Cfg) : PCfg where
  currentTime := c.currentTime
  defaultTz := c.defaultTz
  dayOfMonth := c.dayOfMonth.code
  monthOfYear := c.monthOfYear.code
  dateSource := c.dateSource.code
  strict := c.strict
  requiredParts := c.requiredParts
  skipTokens := c.skipTokens
  defaultLanguages := c.defaultLanguages
  timeAsPeriod := c.timeAsPeriod
  preserveEndOfMonth := c.preserveEndOfMonth

/-! ## search.go -/

/-- search.go:244-245, 254-257: `configFromInternal(iCfg)` with its current time (none for the zero time). -/
def entryCfg (c : PCfg) (t : Option Time) : PCfg := { PCfg.fromInternal c.toInternal with currentTime := t.getD Time.zero }

/-- search.go:238-269: the parser as `parseEntry` calls it; an error gives the zero date. -/
def Env.searchParser (E : Env) (c : PCfg) : SearchEnv ParserSt Time DateRes where
  parse s t str :=
    let r := E.parse s (some (entryCfg c t)) str []
    (r.1, match r.2 with
      | .ok d => if d.isZero then none else some d
      | .error _ => none)
  time d := if d.time.isZero then none else some d.time
  isDigit := E.uni.isDigit

/-- The library as `Search` uses it; `compose` is `norm.NFKD` followed by `norm.NFKC`, `detect` the caller's
`DetectLanguagesFunction`. -/
def Env.searchWorld (E : Env) (compose : List Char → List Char) (detect : Option (List Char → List Name)) : SearchWorld ParserSt DateRes where
  uni := E.uni
  compose := compose
  table := E.table
  data n := (getLocaleData n).map fun _ => (E.lang n, (charsets.lookup n).getD [])
  now := E.now
  isTz := wordIsTz E.table
  parser := E.searchParser
  detect := detect

end Verif.Model
