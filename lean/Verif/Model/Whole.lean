import Verif.Model.Parser
import Verif.Model.Pattern
import Verif.Model.Absolute
import Verif.Model.Relative
import Verif.Model.Nospace
import Verif.Model.Timestamp
import Verif.Model.Timezone
import Verif.Model.Formatted
/-!
# Putting the parts together

`Parse` with the models of the individual parsers, of the translation and of the check whether a locale applies.
-/
set_option autoImplicit false
namespace Verif.Model
open Verif.Go Verif.Data

/-! ## strutil.go: `SanitizeDate` -/

/-- strutil.go:43 `rxSanitizeSkip`. -/
def rxSanitizeSkip : Rx :=
  .alt (.chr ['\t', '\n', '\r', '\u00bb'].contains)
    (.alt (.seqs [.chr (· == ','), .space, .chr (· == '\u0432'), .wb]) (.chr ['\u200e', '\u00b7', '\u200f', '\u064e', '\u064f'].contains))
/-- strutil.go:44 `rxSanitizeRussian`; `[\PL\pN]` is every character that is not a letter. -/
def rxSanitizeRussian (U : Uni) : Rx :=
  .seqs [.grp 1 (.chr fun c => !U.isLetter c || U.isNumber c), .chr ['\u0433', '\u0413'].contains, .chr (· == '.')]
/-- strutil.go:45 `rxSanitizeCroatian`. -/
def rxSanitizeCroatian (U : Uni) : Rx :=
  .seqs [.grp 1 (.plus (.chr U.isNumber)), .chr (· == '.'), .opt .space, .grp 2 (.plus (.chr U.isNumber)), .chr (· == '.'), .opt .space,
    .grp 3 (.plus (.chr U.isNumber)), .chr (· == '.'), .opt (.grp 4 (.seq (.chr (· == ' ')) (.chr ['u', 'U'].contains)))]
/-- strutil.go:46 `rxSanitizePeriod`. -/
def rxSanitizePeriod (U : Uni) : Rx :=
  .seq (.grp 1 (.chr fun c => !(U.isNumber c || c == '.' || isRxSpace c))) (.chr (· == '.'))
/-- `on:\s+`, of strutil.go:47 `rxSanitizeOn`. -/
def rxOn : Rx := .seqs [.chr ['o', 'O'].contains, .chr ['n', 'N'].contains, .chr (· == ':'), .plus .space]

/-- strutil.go:47, 106: `^.*?on:\s+(.*)` replaced by its group 1.  There is no line feed in the text any more, so this is
what follows the first `on:\s+`. -/
def cutOn (s : List Char) : List Char :=
  match rxOn.findFirst s with
  | some m => m.after.rest
  | none => s

/-- strutil.go:19-34, 70-73 `NormalizeAposthrope`. -/
def normalizeApostrophe (s : List Char) : List Char :=
  s.map fun c => if ['\u2019', '\u02bc', '\u02bb', '\u055a', '\ua78c', '\u2032', '\u2035', '\u02b9', '\uff07'].contains c then '\'' else c

/-- `strings.TrimSuffix(s, ":")`. -/
def trimColon (s : List Char) : List Char := if s.getLast? = some ':' then s.dropLast else s

/-- strutil.go:99-113 `SanitizeDate`. -/
def sanitizeDate (U : Uni) (s : List Char) : List Char :=
  let s := replaceAllTmpl rxSanitizeSkip [.lit [' ']] s
  let s := replaceAllTmpl (rxSanitizeRussian U) [.ref 1, .lit [' ']] s
  let s := replaceAllTmpl (rxSanitizeCroatian U) [.ref 1, .lit ['.'], .ref 2, .lit ['.'], .ref 3, .lit [' ']] s
  let s := sanitizeSpaces s
  let s := replaceAllTmpl (rxSanitizePeriod U) [.ref 1] s
  let s := cutOn s
  let s := trimColon s
  let s := normalizeApostrophe s
  trimSpace s

/-! ## The library -/

/-- What the library gets from outside: Unicode tables, the order Go's random map iteration gave the time zone table, the
system clock, the system zone, the value of an out-of-range conversion, the order of month names in a map, and the
patterns of the locales. -/
structure Env where
  uni : Uni
  table : List TzEntry
  now : Time
  localZone : Loc
  big : Int
  monthFirst : Nat → Bool
  /-- the locale data by name, merged with the parent -/
  lang : Name → Lang

/-- A result, the zero date for an error.  (The parsers called this way return; `nospace` under `StrictParsing` may not, see
`Model.Nospace`.) -/
def orZero : Except Fault DateRes → DateRes
  | .ok r => r
  | .error _ => DateRes.zero

/-- root parser.go: what `Parse` calls. -/
def Env.parts (E : Env) : Parts where
  normalize := E.uni.normalizeString
  sanitize := sanitizeDate E.uni
  strip := stripBraces
  popTz := popTzOffset E.table
  applicable cfg l str := isApplicable E.uni (E.lang l.name) cfg.skipTokens str
  translate cfg l str keep := (translate E.uni (E.lang l.name) cfg.skipTokens str keep).getD []
  formatted cfg str formats := formattedParse (popTzOffset E.table) cfg E.now str formats
  timestamp cfg str neg := timestampParse cfg E.localZone str neg
  relative cfg str := relativeParse (popTzOffset E.table) E.big cfg E.now str
  absolute cfg str tz := orZero (absoluteParse cfg E.now E.monthFirst str tz)
  nospace cfg str := orZero (nospaceParse cfg E.now.year str)

/-- `dateparser.Parser.Parse` as a whole. -/
def Env.parse (E : Env) (s : ParserSt) (c : Option PCfg) (str : List Char) (formats : List (List Char)) :
    ParserSt × Except ParseErr DateRes := Model.parse E.parts E.now s c str formats

end Verif.Model
