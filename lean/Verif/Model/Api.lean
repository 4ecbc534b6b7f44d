import Verif.Model.SearchWhole
/-! # The exported functions of the library on one `Parser` object, with what it keeps between calls -/
set_option autoImplicit false
namespace Verif.Model
open Verif.Go Verif.Data

section
variable {σ τ D : Type}

/-- search.go:83-122 `SearchWithLanguage`, from the translation on, with the state of the parser afterwards. -/
def searchWithLanguageSt (U : Uni) (env : SearchEnv σ τ D) (L : Lang) (isTz : List Char → Bool)
    (skip : List (List Char)) (lang : List Char) (str : List Char) (st : σ × Option τ) :
    Option (σ × List (ParsedSearch D × List Char)) := do
  let (translation, original) ← translateSearch U L isTz skip str
  let useTranslation := !(lang == ['v', 'i'] || lang == ['h', 'u'])
  let (st, parsed, subStrings) ← parseFoundObjects env useTranslation translation original st
  if parsed.length ≤ subStrings.length then some (st.1, parsed.zip subStrings) else none

/-- search.go:83-122 `SearchWithLanguage`, with the state of the parser afterwards. -/
def searchInSt (W : SearchWorld σ D) (c : Option PCfg) (lang : Name) (text : List Char) (s : σ) :
    Option (σ × Except SearchErr (List (ParsedSearch D × List Char))) :=
  match initSearchConfig W.now c with
  | .error e => some (s, .error (.config e))
  | .ok c =>
    match W.data lang with
    | none => some (s, .error .unknownLanguage)
    | some d => do
      let (s', r) ← searchWithLanguageSt W.uni (W.parser c) d.1 W.isTz c.skipTokens lang text
        (s, if c.currentTime.isZero then none else some c.currentTime)
      pure (s', .ok r)

end

/-- parser.go:26-45 `Parser`: the exported fields and the ones it keeps for itself. -/
structure ParserObj where
  st : ParserSt := {}
  /-- `uniqueCharsets` -/
  unique : List (Name × List Char) := []

/-- search.go:24-28 `SearchResult`. -/
structure SearchResult where
  date : DateRes
  text : List Char

/-- search.go:110-119: the results, each with the language as its locale. -/
def searchResults (lang : Name) (found : List (ParsedSearch DateRes × List Char)) : List SearchResult :=
  found.map fun r => { date := { (r.1.date.getD DateRes.zero) with locale := lang }, text := r.2 }

/-- A call of one of the exported methods of `Parser`. -/
inductive Request where
  | parse (c : Option PCfg) (str : List Char) (formats : List (List Char))
  | searchWithLanguage (c : Option PCfg) (lang : Name) (text : List Char)
  | search (c : Option PCfg) (text : List Char)

/-- What the call returns. -/
inductive Answer where
  | date (r : Except ParseErr DateRes)
  | found (r : Except SearchErr (List SearchResult))
  | foundIn (r : Except SearchErr (Name × List SearchResult))

/-- The surroundings of a search with this object: its `DetectLanguagesFunction` is used by `Search` (search.go:60-62) and
by `Parse` (parser.go:238-242). -/
def Env.worldOf (E : Env) (compose : List Char → List Char) (p : ParserObj) : SearchWorld ParserSt DateRes :=
  E.searchWorld compose p.st.detect

/-- parser.go:68-168 `Parse`, search.go:83-122 `SearchWithLanguage`, search.go:49-79 `Search`: the object afterwards and what
is returned; `none` is a panic. -/
def Env.call (E : Env) (compose : List Char → List Char) (p : ParserObj) : Request → Option (ParserObj × Answer)
  | .parse c str formats =>
    let r := E.parse p.st c str formats
    some ({ p with st := r.1 }, .date r.2)
  | .searchWithLanguage c lang text => do
    let (s, r) ← searchInSt (E.worldOf compose p) c lang text p.st
    pure ({ p with st := s }, .found (r.map (searchResults lang)))
  | .search c text =>
    match initSearchConfig E.now c with
    | .error e => some (p, .foundIn (.error (.config e)))
    | .ok c =>
      match searchLanguages (E.worldOf compose p) c text with
      | .error e => some (p, .foundIn (.error (.load e)))
      | .ok languages =>
        let W := E.worldOf compose p
        let unique := initUniqueCharsets W.toDetectEnv languages p.unique
        do
          match ← detectFullTextLanguage W.toDetectEnv c.skipTokens c.defaultLanguages text languages unique with
          | none => some ({ p with unique := unique }, .foundIn (.error .notDetected))
          | some lang =>
            let (s, r) ← searchInSt W (some c) lang text p.st
            pure ({ st := s, unique := unique }, .foundIn (r.map fun r => (lang, searchResults lang r)))

end Verif.Model
