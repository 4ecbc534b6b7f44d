import Verif.Go.Strings
import Verif.Data.Locales
/-! # internal/language/loader.go, internal/language/languages.go (GetLanguages) -/
set_option autoImplicit false
namespace Verif.Model
open Verif.Go Verif.Data

/-- Language and locale codes. -/
abbrev Name := List Char

/-- Looking a key up in a table. -/
def lookup {α : Type} (t : List (Name × α)) (k : Name) : Option α := (t.find? (·.1 == k)).map (·.2)

/-- `data.LanguageOrder[language]`. -/
def langRank (l : Name) : Option Nat := lookup languageOrder l
/-- `data.LocaleOrder[locale]`: 0 if missing. -/
def localeRank (l : Name) : Nat := (lookup localeOrder l).getD 0
/-- internal/data/00-locale-data.go:77-1095 `GetLocaleData`. -/
def getLocaleData (l : Name) : Option LocaleInfo := lookup localeData l

/-- internal/strutil/strutil.go `RemoveRegion`; only used on ASCII names. -/
def removeRegion (l : Name) : Name :=
  let suffix := (l.reverse.takeWhile (· != '-')).reverse
  if l.contains '-' && !suffix.isEmpty && suffix == toUpper suffix then
    l.take (l.length - suffix.length - 1)
  else l

/-- `strings.ToUpper` for what ends up in a locale code: besides ASCII letters only the dotless i and the long s
have an ASCII upper case; other characters cannot be part of a code in any case and are left alone. -/
def upperRegionC (c : Char) : Char := if c = 'ı' then 'I' else if c = 'ſ' then 'S' else toUpperC c

inductive LoadErr where
  | conflicting
  | unknownLocales (l : List Name)
  | unknownLanguages (l : List Name)
  | notFound
deriving DecidableEq

deriving instance DecidableEq for Except

/-- loader.go:33-63: the loop over `locales`. -/
def locLoop (allow : Bool) : List Name → (valid langs invalid : List Name) → Except LoadErr (List Name)
  | [], valid, _, invalid => if invalid.isEmpty then .ok valid else .error (.unknownLocales invalid)
  | l :: r, valid, langs, invalid =>
    if valid.contains l then locLoop allow r valid langs invalid
    else if (getLocaleData l).isNone then locLoop allow r valid langs (invalid ++ [l])
    else if !allow && langs.contains (removeRegion l) then .error .conflicting
    else locLoop allow r (valid ++ [l]) (if allow then langs else langs ++ [removeRegion l]) invalid

/-- loader.go:66-71 and languages.go:76-81: all languages, in the slots given by `LanguageOrder`. -/
def allLanguages : List Name :=
  (List.range languageOrder.length).map fun i => ((languageOrder.find? (·.2 == i)).map (·.1)).getD []

/-- loader.go:95-98: the code generated for a language. -/
def withRegion (region lang : Name) : Name := if region.isEmpty then lang else lang ++ '-' :: region

/-- loader.go:77-118: the loop over `languages`. -/
def langLoop (region : Name) : List Name → (valid seen unknown : List Name) → Except LoadErr (List Name)
  | [], valid, _, unknown => if unknown.isEmpty then .ok valid else .error (.unknownLanguages unknown)
  | l :: r, valid, seen, unknown =>
    if seen.contains l then langLoop region r valid seen unknown
    else if (langRank l).isNone then langLoop region r valid (seen ++ [l]) (unknown ++ [l])
    else if valid.contains (withRegion region l) then langLoop region r valid (seen ++ [l]) unknown
    else if (getLocaleData (withRegion region l)).isNone then langLoop region r valid (seen ++ [l]) unknown
    else langLoop region r (valid ++ [withRegion region l]) (seen ++ [l]) unknown

/-- loader.go:123-134, languages.go:64-72: the order of `sort.Slice`, as "not after". -/
def rankLE (rank : Name → Nat) (a b : Name) : Bool :=
  decide (rank a < rank b) || (rank a == rank b && !decide (b < a))

/-- Insertion into a sorted list. -/
def insertBy (le : Name → Name → Bool) (x : Name) : List Name → List Name
  | [] => [x]
  | y :: r => if le x y then x :: y :: r else y :: insertBy le x r

/-- `sort.Slice` with an order in which different elements are never equivalent: the algorithm does not matter, so a
simple one is used. -/
def sortBy (le : Name → Name → Bool) (l : List Name) : List Name := l.foldr (insertBy le) []

/-- loader.go:74-75. -/
def tidyRegion (region : Name) : Name := trimSpace (region.map upperRegionC)

/-- loader.go:25-119: the codes, before sorting. -/
def rawLocales (locales languages : List Name) (region : Name) (allow : Bool) : Except LoadErr (List Name) :=
  if locales.isEmpty then
    langLoop (tidyRegion region) (if languages.isEmpty then allLanguages else languages) [] [] []
  else locLoop allow locales [] [] []

/-- loader.go:24-148 `GetLocales`, giving the codes; the locale data is `getLocaleData` of each.  `sort.Slice` is
not stable, but the order is total. -/
def getLocales (locales languages : List Name) (region : Name) (useGivenOrder allow : Bool) : Except LoadErr (List Name) :=
  match rawLocales locales languages region allow with
  | .error e => .error e
  | .ok l =>
    let l := if useGivenOrder then l else sortBy (rankLE localeRank) l
    if l.isEmpty then .error .notFound else .ok l

/-- languages.go:21-42: the loop over `locales`. -/
def langOfLoop : List Name → (result invalid : List Name) → Except LoadErr (List Name)
  | [], result, invalid => if invalid.isEmpty then .ok result else .error (.unknownLocales invalid)
  | l :: r, result, invalid =>
    if (getLocaleData l).isNone then langOfLoop r result (invalid ++ [l])
    else if result.contains (removeRegion l) then langOfLoop r result invalid
    else langOfLoop r (result ++ [removeRegion l]) invalid

/-- languages.go:13-84 `GetLanguages`. -/
def getLanguages (locales languages : List Name) (useGivenOrder : Bool) : Except LoadErr (List Name) :=
  let raw := if locales.isEmpty then
      (if languages.all fun l => (langRank l).isSome then .ok languages
       else .error (.unknownLanguages (languages.filter fun l => (langRank l).isNone)))
    else langOfLoop locales [] []
  match raw with
  | .error e => .error e
  | .ok l =>
    let l := if useGivenOrder then l else sortBy (rankLE fun l => (langRank l).getD 0) l
    .ok (if l.isEmpty then allLanguages else l)

end Verif.Model
