import Verif.Model.Parser
import Verif.Spec.Loader
/-! # Specification vocabulary: what `Parse` on a `Parser` does -/
set_option autoImplicit false
namespace Verif.Spec
open Verif.Go Verif.Model Verif.Data

/-- The kinds of parsers a user can list. -/
inductive Kind where
  | timestamp | negativeTimestamp | relativeTime | customFormat | absoluteTime | noSpacesTime
deriving DecidableEq

/-- The values of the exported constants. -/
def Kind.code : Kind → Nat
  | .timestamp => 0 | .negativeTimestamp => 1 | .relativeTime => 2
  | .customFormat => 3 | .absoluteTime => 4 | .noSpacesTime => 5

/-- Without a list all kinds are tried. -/
def kindsOrDefault (ks : List Kind) : List Kind :=
  if ks = [] then
    [.timestamp, .negativeTimestamp, .relativeTime, .customFormat, .absoluteTime, .noSpacesTime] else ks

/-- The configuration handed to the individual parsers for locale `l`: the user's date order if it is one. -/
def configFor (c : PCfg) (l : LocaleInfo) : Cfg :=
  { c.toInternal with dateOrder := match c.dateOrder with
    | some f => if (toUpper (f l.name)).Perm "DMY".toList then toUpper (f l.name) else l.dateOrder
    | none => l.dateOrder }

/-- Everything one kind of parser has to offer for a sanitised string, in order. -/
def offers (P : Parts) (cfg : Cfg) (l : LocaleInfo) (str : List Char) (formats : List (List Char)) :
    Kind → List DateRes
  | .timestamp => [P.timestamp cfg str false]
  | .negativeTimestamp => [P.timestamp cfg str true]
  | .relativeTime => (P.translate cfg l str false).map (P.relative cfg)
  | .customFormat => (P.translate cfg l str true).map fun t => P.formatted cfg t formats
  | .absoluteTime => (((P.translate cfg l str false).map fun t => P.popTz (P.strip t)).filter (·.1 ≠ [])).map
      fun x => applyTimezone cfg (P.absolute cfg x.1 x.2) x.2
  | .noSpacesTime => (((P.translate cfg l str false).map fun t => P.popTz (P.strip t)).filter (·.1 ≠ [])).map
      fun x => applyTimezone cfg (P.nospace cfg x.1) x.2

/-- All offers for a string: the caller's formats on the string as it is; then locale by locale, kind by kind. -/
def allOffers (P : Parts) (c : PCfg) (kinds : List Kind) (locales : List LocaleInfo) (str : List Char)
    (formats : List (List Char)) : List DateRes :=
  P.formatted c.toInternal str formats ::
    locales.flatMap fun l => kinds.flatMap fun k =>
      (offers P (configFor c l) l (P.sanitize str) formats k).map fun dt => { dt with locale := l.name }

/-- The first that is a date. -/
def firstDate (l : List DateRes) : Option DateRes := l.find? fun d => !d.isZero

/-- One use of `Parse`; `now` is the time of the call. -/
structure Call where
  now : Time
  cfg : PCfg
  str : List Char
  formats : List (List Char)

/-- A new `Parser`, and what it is after some calls. -/
def newParser (detect : Option (List Char → List Name)) (types : List Nat) : ParserSt := { detect := detect, types := types }

def afterCalls (P : Parts) (s : ParserSt) : List Call → ParserSt
  | [] => s
  | c :: r => afterCalls P (parse P c.now s (some c.cfg) c.str c.formats).1 r

/-- What the calls returned, in order. -/
def outcomes (P : Parts) (s : ParserSt) : List Call → List (Call × Except ParseErr DateRes)
  | [] => []
  | c :: r => (c, (parse P c.now s (some c.cfg) c.str c.formats).2) ::
      outcomes P (parse P c.now s (some c.cfg) c.str c.formats).1 r

/-- The locales of the results of calls with `TryPreviousLocales`. -/
def rememberedLocales (h : List (Call × Except ParseErr DateRes)) : List Name :=
  h.filterMap fun x => match x.2 with
    | .ok d => if x.1.cfg.tryPrevious ∧ d.locale ≠ [] then some d.locale else none
    | .error _ => none

/-- The languages of a call: those given, else, without locales, what the detector says of the string. -/
def languagesOf (P : Parts) (detect : Option (List Char → List Name)) (c : Call) : List Name :=
  match detect with
  | some f => if c.cfg.locales = [] ∧ c.cfg.languages = [] then f (P.normalize (P.sanitize c.str)) else c.cfg.languages
  | none => c.cfg.languages

/-- The locales a call asks for. -/
def Asks (P : Parts) (detect : Option (List Char → List Name)) (c : Call) (x : Name) : Prop :=
  AskedFor c.cfg.locales (languagesOf P detect c) (tidyRegion c.cfg.region) x ∨
  (c.cfg.defaultLanguages ≠ [] ∧ AskedFor [] c.cfg.defaultLanguages (tidyRegion c.cfg.region) x)

/-- The locale's data. -/
def dataOf (x : Name) : Option LocaleInfo := (localeData.find? (·.1 = x)).map (·.2)

/-- The locale applies to the sanitised string, or to it without its time zone. -/
def applies (P : Parts) (cfg : Cfg) (str : List Char) (x : Name) : Bool :=
  match dataOf x with
  | some l => P.applicable cfg l (P.normalize str) || P.applicable cfg l (P.popTz (P.normalize str)).1
  | none => false

/-- The codes of the default languages (C27 says which these are). -/
def defaultCodes (c : PCfg) : List Name :=
  if c.defaultLanguages = [] then []
  else match getLocales [] c.defaultLanguages c.region c.useGivenOrder false with
    | .ok l => l
    | .error _ => []

/-- The locales tried, in order and each once: with `TryPreviousLocales` the first remembered one that applies; of
the loaded ones those that apply; those of the default languages. -/
def localesTried (P : Parts) (c : PCfg) (remembered loaded : List Name) (str : List Char) : List LocaleInfo :=
  (firsts ((if c.tryPrevious then (remembered.find? (applies P c.toInternal str)).toList else []) ++
    loaded.filter (applies P c.toInternal str) ++ defaultCodes c)).filterMap dataOf

end Verif.Spec
